import Verif.Proofs.GenOutput
import Verif.Props.Messages
/-
C63: what GenConfig writes.
-/
namespace CPE.Props
open CPE CPE.Spec CPE.SetEnv CPE.KW CPE.KW.Spec

variable {W : GenSite}

/-- C63: there is a configuration to generate options for if and only if every checked section of config-specs.ini has its
canonical name and the build name has a configuration. -/
theorem C63_target (T : Tool) (b : Str) (f : Bool) (c : Str) : (GC.configForOptions T (GC.new b f)).1 = .ok c ↔ Target T b f c := by
  have hv := C56_validate (T := T) b f
  have ho := C56_for_options (T := T) b f
  constructor
  · intro h
    have hok : (GC.validate T (GC.new b f)).1 = .ok () := by
      cases hx : (GC.validate T (GC.new b f)).1 with
      | ok u => rfl
      | exc e => rw [ho.2 e hx] at h; cases h
      | diverge =>
        exfalso
        unfold GC.configForOptions at h
        rw [M.read_bind, if_pos (show (GC.new b f).validated = false from rfl),
          M.bind_diverge (show GC.validate T (GC.new b f) = (.diverge, (GC.validate T (GC.new b f)).2) from Prod.ext hx rfl)] at h
        cases h
    rw [ho.1 hok] at h
    exact ⟨(hv.1 hok).2, (C56_complete b f c).1 h⟩
  · rintro ⟨h1, h2⟩
    have hk : ∃ k, CKP.new (cls T.flags) T.fuel b = .ok k := by
      obtain ⟨_, _, _, ⟨k, hk, _⟩, _⟩ := h2
      exact ⟨k, hk⟩
    rw [ho.1 (hv.2 ⟨hk, h1⟩)]
    exact (C56_complete b f c).2 h2

theorem optRes_ok {c : Str} (h : Target W.tool W.args.build W.args.force c) (generator : Str) : optRes W generator = W.gen c generator := by
  rw [optRes, target, (C63_target ..).2 h]; rfl

theorem optRes_exc {e : PyExc} (h : (GC.configForOptions W.tool (GC.new W.args.build W.args.force)).1 = .exc e) (generator : Str) :
    optRes W generator = .exc e := by
  rw [optRes, target, h]; rfl

/-- C63: after any history the flags are the options of the configuration, generated for bash, with a backslash and a line end
between them; a failure to find the configuration or to generate the options is passed on. No file is touched and nothing is asked. -/
theorem C63_flags (files : Dict Str Str) (input : List Str) (ops : List JobOp) :
    (∀ c os t, Target W.tool W.args.build W.args.force c → W.gen c py!"bash" = .ok os → Separated py!" \\\n    " os t →
      (Job.flagsStr W (JobOp.run W ops (Job.new W.args files input))).1 = .ok t) ∧
    (∀ c e, Target W.tool W.args.build W.args.force c → W.gen c py!"bash" = .exc e →
      (Job.flagsStr W (JobOp.run W ops (Job.new W.args files input))).1 = .exc e) ∧
    (∀ e, (GC.configForOptions W.tool (GC.new W.args.build W.args.force)).1 = .exc e →
      (Job.flagsStr W (JobOp.run W ops (Job.new W.args files input))).1 = .exc e) ∧
    (Job.flagsStr W (JobOp.run W ops (Job.new W.args files input))).2.files = (JobOp.run W ops (Job.new W.args files input)).files ∧
    (Job.flagsStr W (JobOp.run W ops (Job.new W.args files input))).2.input = (JobOp.run W ops (Job.new W.args files input)).input := by
  obtain ⟨j', e, _, h1, h2, _⟩ := flags_step (job_run (W := W) ops (jobInv_new files input)).1
  rw [e]
  refine ⟨fun c os t hc hg ht => ?_, fun c e hc hg => ?_, fun e he => ?_, h1, h2⟩
  · show flagsRes W = _
    rw [flagsRes, optRes_ok hc, hg, separated_det ht]; rfl
  · show flagsRes W = _
    rw [flagsRes, optRes_ok hc, hg]; rfl
  · show flagsRes W = _
    rw [flagsRes, optRes_exc he]; rfl

/-- C63: after any history in which no fragment has been written `write_cmake_fragment` writes the options of the configuration,
one a line, to the file; a file that is already there is replaced only if the user says so (`--yes` or an answer), otherwise it is not touched;
if there is no configuration or no option list, nothing is written or asked, and the failure is passed on. -/
theorem C63_fragment (files : Dict Str Str) (input : List Str) (ops : List JobOp) (hn : ¬ JobOp.Wrote W ops (Job.new W.args files input)) :
    (∀ c os t file, Target W.tool W.args.build W.args.force c → W.gen c py!"cmake_fragment" = .ok os → Separated py!"\n" os t →
      W.args.fragment = some file →
      Writing file t W.args.yes (JobOp.run W ops (Job.new W.args files input)).files (JobOp.run W ops (Job.new W.args files input)).input
        (Job.writeFragment W (JobOp.run W ops (Job.new W.args files input))).1
        (Job.writeFragment W (JobOp.run W ops (Job.new W.args files input))).2.files
        (Job.writeFragment W (JobOp.run W ops (Job.new W.args files input))).2.input) ∧
    (∀ e, (∃ c os, Target W.tool W.args.build W.args.force c ∧ W.gen c py!"cmake_fragment" = .ok os ∧ W.args.fragment = none ∧ e = .attributeError) ∨
        (∃ c, Target W.tool W.args.build W.args.force c ∧ W.gen c py!"cmake_fragment" = .exc e) ∨
        (GC.configForOptions W.tool (GC.new W.args.build W.args.force)).1 = .exc e →
      (Job.writeFragment W (JobOp.run W ops (Job.new W.args files input))).1 = .exc e ∧
      (Job.writeFragment W (JobOp.run W ops (Job.new W.args files input))).2.files = (JobOp.run W ops (Job.new W.args files input)).files ∧
      (Job.writeFragment W (JobOp.run W ops (Job.new W.args files input))).2.input = (JobOp.run W ops (Job.new W.args files input)).input) := by
  obtain ⟨hi, hw⟩ := job_run (W := W) ops (jobInv_new files input)
  have hnone : (JobOp.run W ops (Job.new W.args files input)).fragmentFile = none := by
    cases hf : (JobOp.run W ops (Job.new W.args files input)).fragmentFile with
    | none => rfl
    | some p =>
      rw [hf] at hw
      exact absurd ((hw.1 rfl).resolve_left (fun h => by cases h)) hn
  obtain ⟨h1, h2, h3⟩ := fragment_step hi hnone
  refine ⟨fun c os t file hc hg ht hf => ?_, fun e he => ?_⟩
  · obtain ⟨r, j', e, hwr, _⟩ := h1 os file (by rw [optRes_ok hc, hg]) hf
    rw [e, separated_det ht]
    exact hwr
  · rcases he with ⟨c, os, hc, hg, hf, rfl⟩ | ⟨c, hc, hg⟩ | he
    · obtain ⟨j', e1, e2, e3, _⟩ := h2 os (by rw [optRes_ok hc, hg]) hf
      rw [e1]; exact ⟨rfl, e2, e3⟩
    · have ho : optRes W py!"cmake_fragment" = .exc e := by rw [optRes_ok hc, hg]
      obtain ⟨j', e1, e2, e3, _⟩ := h3 (by rw [ho]; intro _ h; cases h)
      rw [e1, ho]; exact ⟨rfl, e2, e3⟩
    · have ho := optRes_exc he py!"cmake_fragment"
      obtain ⟨j', e1, e2, e3, _⟩ := h3 (by rw [ho]; intro _ h; cases h)
      rw [e1, ho]; exact ⟨rfl, e2, e3⟩

/-- C63: once a fragment has been written, a further call returns the path and does nothing, also if the file has been changed or
removed since. -/
theorem C63_fragment_again (files : Dict Str Str) (input : List Str) (ops : List JobOp) (hn : JobOp.Wrote W ops (Job.new W.args files input)) :
    ∃ file, W.args.fragment = some file ∧
      Job.writeFragment W (JobOp.run W ops (Job.new W.args files input)) = (.ok file, JobOp.run W ops (Job.new W.args files input)) := by
  obtain ⟨hi, hw⟩ := job_run (W := W) ops (jobInv_new files input)
  have := hw.2 (.inr hn)
  cases hf : (JobOp.run W ops (Job.new W.args files input)).fragmentFile with
  | none => rw [hf] at this; cases this
  | some p => exact ⟨p, hi.file p hf, fragment_again hf⟩

/-- C63: what is typed decides the answer, and nothing after the deciding line is read. -/
theorem C63_reply (input : List Str) : ∃ r rest, Reply input r rest ∧ (∀ r' rest', Reply input r' rest' → r' = r ∧ rest' = rest) ∧
    ∃ used, input = used ++ rest := by
  refine ⟨_, _, ask_reply input, fun r' rest' h => reply_det h (ask_reply input), ?_⟩
  have : ∀ {i : List Str} {r : Out Bool} {re : List Str}, Reply i r re → ∃ used, i = used ++ re := by
    intro i r re h
    induction h with
    | @yes c t rs _ => exact ⟨[c :: t], rfl⟩
    | @no c t rs _ => exact ⟨[c :: t], rfl⟩
    | @again c t rs r re _ _ ih => obtain ⟨u, hu⟩ := ih; exact ⟨(c :: t) :: u, by rw [hu]; rfl⟩
    | empty => exact ⟨[[]], rfl⟩
    | ended => exact ⟨[], rfl⟩
  exact this (ask_reply input)

/-- C63: the arguments for LoadEnv are the three files, the two flags, and the build name. -/
theorem C63_load_env_args (A : GenArgs) : LoadEnvCall A (loadEnvArgs A) := by
  unfold loadEnvArgs
  refine ⟨(if A.force = true then [py!"--force"] else []) ++ (if A.ciMode = true then [py!"--ci-mode"] else []), ?_, ?_, ?_, ?_, ?_⟩
  all_goals cases hf : A.force <;> cases hc : A.ciMode <;> simp

/-- C63: the shell gets those arguments back from the file that they are saved in, if each is one word: none is empty or
contains a blank, a tab or a line end. -/
theorem C63_saved_args (A : GenArgs) (t : Str) (ht : Separated py!" " (loadEnvArgs A) t)
    (hw : OneWord A.build ∧ OneWord A.systemsFile ∧ OneWord A.envsFile ∧ OneWord A.specsFile) (l : List Str) :
    ShellWords t l ↔ l = loadEnvArgs A := by
  have h : ShellWords t (loadEnvArgs A) := by
    refine shell_join ht ?_
    intro w hm
    have hlit : ∀ x ∈ [py!"--supported-systems", py!"--supported-envs", py!"--environment-specs", py!"--force", py!"--ci-mode"], OneWord x := by
      unfold OneWord; decide
    obtain ⟨flags, hfl, _, _, _, he⟩ := C63_load_env_args A
    rw [he] at hm
    simp only [List.mem_cons, List.mem_append, List.not_mem_nil, or_false] at hm
    rcases hm with rfl | rfl | rfl | rfl | rfl | rfl | hm | rfl
    · exact hlit _ (by decide)
    · exact hw.2.1
    · exact hlit _ (by decide)
    · exact hw.2.2.1
    · exact hlit _ (by decide)
    · exact hw.2.2.2
    · rcases hfl w hm with rfl | rfl <;> exact hlit _ (by decide)
    · exact hw.1
  exact ⟨fun h' => shell_det h' h, fun h' => h' ▸ h⟩

/-- C63: the shell script passes the flags to CMake by letting the shell split their text; it then gets, besides the options, a
backslash between each two of them. -/
theorem C63_flags_words (os : List Str) (t : Str) (ht : Separated py!" \\\n    " os t) (hw : ∀ w ∈ os, OneWord w) :
    ∃ l, Between py!"\\" os l ∧ ∀ l', ShellWords t l' ↔ l' = l := by
  obtain ⟨l, h1, h2⟩ := shell_flags ht hw
  exact ⟨l, h1, fun l' => ⟨fun h' => shell_det h' h2, fun h' => h' ▸ h2⟩⟩

/-- What `flagsText` gives on a new object. -/
theorem flagsText_new (files : Dict Str Str) (input : List Str) :
    (∀ e, CKP.new (cls W.tool.flags) W.tool.fuel W.args.build = .exc e → (Job.flagsText W (Job.new W.args files input)).1 = .exc e) ∧
    (∀ k, CKP.new (cls W.tool.flags) W.tool.fuel W.args.build = .ok k → (Job.flagsText W (Job.new W.args files input)).1 =
      (CKP.flagsMsg (cls W.tool.flags) W.tool.fuel W.args.flagsFile py!"Please select one of the following." py!"INFO" k).1) ∧
    (Job.flagsText W (Job.new W.args files input)).2.files = files ∧ (Job.flagsText W (Job.new W.args files input)).2.input = input := by
  have hl : GC.loadCkp W.tool (Job.new W.args files input).gc = match CKP.new (cls W.tool.flags) W.tool.fuel W.args.build with
        | .ok k => (Out.ok (), { (Job.new W.args files input).gc with ckp := some k })
        | .exc e => (Out.exc e, (Job.new W.args files input).gc)
        | .diverge => (Out.diverge, (Job.new W.args files input).gc) := rfl
  unfold Job.flagsText
  rw [M.bind_def]
  unfold Job.onGc
  rw [hl]
  cases CKP.new (cls W.tool.flags) W.tool.fuel W.args.build with
  | ok k => exact ⟨(fun _ h => by cases h), (fun _ h => by cases h; rfl), rfl, rfl⟩
  | exc e => exact ⟨(fun _ h => by cases h; rfl), (fun _ h => by cases h), rfl, rfl⟩
  | diverge => exact ⟨(fun _ h => by cases h), (fun _ h => by cases h), rfl, rfl⟩

/-- The list of the flags can be made if and only if their options can be read. -/
theorem flagsMsg_options {E : Env Unit Unit} {n : Nat} {b : Str} {k : CKP} (h : CKP.new E n b = .ok k) (path msg kind : Str) :
    (∃ t l, (CKP.flagsMsg E n path msg kind k).1 = .ok t ∧ (CKP.optionsForAllFlags E n k).1 = .ok l) ∨
    (∃ e, (CKP.flagsMsg E n path msg kind k).1 = .exc e ∧ (CKP.optionsForAllFlags E n k).1 = .exc e) ∨
    ((CKP.flagsMsg E n path msg kind k).1 = .diverge ∧ (CKP.optionsForAllFlags E n k).1 = .diverge) := by
  obtain ⟨d, o1, hr, hinv, _⟩ := ckpNew_ok h
  have hg := getItem_again hr n
  obtain ⟨k', e, _⟩ := allOptions_inv hg hinv
  rw [flagsMsg_read hg hinv, e]
  rcases flagListRes_optionsRes (d := d) (Dict.keys d) with ⟨t, l, h1, h2⟩ | ⟨e, h1, h2⟩ | ⟨h1, h2⟩
  · rw [h1, h2]; exact .inl ⟨_, _, rfl, rfl⟩
  · rw [h1, h2]; exact .inr (.inl ⟨_, rfl, rfl⟩)
  · rw [h1, h2]; exact .inr (.inr ⟨rfl, rfl⟩)

/-- C64: what GenConfig shows as the supported flags: the flags with their types and options, with a request to choose. -/
theorem C64_list_config_flags (files : Dict Str Str) (input : List Str) {k : CKP} {d : Options} {o1 : CObj}
    (h : CKP.new (cls W.tool.flags) W.tool.fuel W.args.build = .ok k)
    (hr : edGetItem (cls W.tool.flags) W.tool.fuel flagSection (Obj.fresh (cls W.tool.flags) ()) = (.ok d, o1)) {fl : List Flag}
    (hd : Lists d fl) (hf : ∀ f ∈ fl, FlagOnLines f) (hp : OneLine W.args.flagsFile) :
    ∃ es text, FlagsShown fl es ∧ (Job.flagsText W (Job.new W.args files input)).1 = .ok text ∧
      Message [py!"Please select one of the following."] py!"INFO"
        ([[], py!"- Supported Flags Are:"] ++ es ++ [[], py!"See " ++ W.args.flagsFile ++ py!" for details."]) text := by
  obtain ⟨es, text, h1, _, h2, h3⟩ := C64_flags h hr hd hf [] (kind := py!"INFO") (msg := py!"Please select one of the following.") hp
    (by decide) (.last (by decide) (oneLine_of_isBreak (by decide)))
  refine ⟨es, text, h1, ?_, h2⟩
  rw [(flagsText_new files input).2.1 k h]
  exact congrArg Prod.fst h3

/-- C64: what GenConfig shows as the supported configurations: the sections of config-specs.ini whose names begin with the name
of the system, in the order of the file. -/
theorem C64_list_configs (files : Dict Str Str) (input : List Str) {s : Str} (hs : SystemIs W.tool W.args.build W.args.force s)
    (hp : OneLine W.args.configsFile) (hn : ∀ c ∈ W.tool.specs.sectionNames, OneLine c) :
    ∃ l text, (∀ p : Str → Bool, (∀ c, p c = true ↔ ∃ t, c = s ++ t) → l = W.tool.specs.sectionNames.filter p) ∧
      (Job.configsText W (Job.new W.args files input)).1 = .ok text ∧
      Message [py!"Please select one of the following complete configurations from", W.args.configsFile, []] py!"INFO"
        (l.map (py!"  - " ++ ·) ++ [[]]) text := by
  obtain ⟨l, hl, hf⟩ := (C56_list (T := W.tool) W.args.build W.args.force).1 s hs
  refine ⟨l, msgForList (py!"Please select one of the following complete configurations from\n" ++ W.args.configsFile ++ py!"\n\n") l py!"INFO" py!"\n", hf, ?_, ?_⟩
  · unfold Job.configsText
    rw [M.bind_def]
    unfold Job.onGc
    rw [show (GC.listConfigs W.tool (Job.new W.args files input).gc).1 = .ok l from hl]
    rfl
  · refine C64_list (by decide) (fun i hi => ?_) ?_ ?_
    · have := hf (fun c => startsWith s c) (fun c => startsWith_iff s c)
      rw [this] at hi
      exact hn i (List.mem_filter.1 hi).1
    · have := lines_unlines (ls := [py!"Please select one of the following complete configurations from", W.args.configsFile, []]) (s := [])
        (rs := []) (by
          intro x hx
          simp only [List.mem_cons, List.not_mem_nil, or_false] at hx
          rcases hx with rfl | rfl | rfl
          · exact oneLine_of_isBreak (by decide)
          · exact hp
          · exact oneLine_of_isBreak rfl) .none
      simpa [unlines] using this
    · exact lines_unlines (ls := [[]]) (s := []) (rs := []) (by intro x hx; rw [List.mem_singleton.1 hx]; exact oneLine_of_isBreak rfl) .none

/-- C63: `main` with one of the options that list something: it ends with SystemExit, or with the failure to read the flags and their
options or to find the system; no file is touched and nothing is asked. -/
theorem C63_main_list (files : Dict Str Str) (input : List Str) (out loc : Str)
    (hl : W.args.listFlags = true ∨ W.args.listConfigs = true) :
    (W.args.listFlags = true →
      (∀ k, CKP.new (cls W.tool.flags) W.tool.fuel W.args.build = .ok k →
        (∀ l, (CKP.optionsForAllFlags (cls W.tool.flags) W.tool.fuel k).1 = .ok l →
          (Job.main W out loc (Job.new W.args files input)).1 = .exc .systemExit) ∧
        (∀ e, (CKP.optionsForAllFlags (cls W.tool.flags) W.tool.fuel k).1 = .exc e →
          (Job.main W out loc (Job.new W.args files input)).1 = .exc e)) ∧
      (∀ e, CKP.new (cls W.tool.flags) W.tool.fuel W.args.build = .exc e → (Job.main W out loc (Job.new W.args files input)).1 = .exc e)) ∧
    (W.args.listFlags = false →
      (∀ s, SystemIs W.tool W.args.build W.args.force s → (Job.main W out loc (Job.new W.args files input)).1 = .exc .systemExit) ∧
      (∀ e, (DS.systemName (cls W.tool.systems) W.tool.fuel W.tool.host (DS.new (cls W.tool.systems) W.args.build W.args.force)).1 = .exc e →
        (Job.main W out loc (Job.new W.args files input)).1 = .exc e)) ∧
    (Job.main W out loc (Job.new W.args files input)).2.files = files ∧
    (Job.main W out loc (Job.new W.args files input)).2.input = input := by
  unfold Job.main
  cases hf : W.args.listFlags with
  | true =>
    rw [if_pos rfl]
    unfold Job.listFlags
    obtain ⟨t1, t2, t3, t4⟩ := flagsText_new (W := W) files input
    have hgen : ∀ r, (Job.flagsText W (Job.new W.args files input)).1 = r →
        (Job.flagsText W >>= fun _ => M.raise PyExc.systemExit : M Job Unit) (Job.new W.args files input) =
          (andThen r fun _ => .exc .systemExit, (Job.flagsText W (Job.new W.args files input)).2) := by
      rintro r rfl
      rw [M.bind_def]
      rcases Job.flagsText W (Job.new W.args files input) with ⟨a | a | _, b⟩ <;> rfl
    refine ⟨fun _ => ⟨fun k hk => ?_, fun e he => ?_⟩, (fun h => by cases h), ?_, ?_⟩
    · have hm := t2 k hk
      rcases flagsMsg_options hk W.args.flagsFile py!"Please select one of the following." py!"INFO" with ⟨t, l, h1, h2⟩ | ⟨e, h1, h2⟩ | ⟨h1, h2⟩
      · rw [h1] at hm; rw [hgen _ hm, h2]
        exact ⟨fun _ _ => rfl, (fun _ h => by cases h)⟩
      · rw [h1] at hm; rw [hgen _ hm, h2]
        exact ⟨(fun _ h => by cases h), (fun _ h => by cases h; rfl)⟩
      · rw [h1] at hm; rw [hgen _ hm, h2]
        exact ⟨(fun _ h => by cases h), (fun _ h => by cases h)⟩
    · rw [hgen _ (t1 e he)]; rfl
    · rw [hgen _ rfl]; exact t3
    · rw [hgen _ rfl]; exact t4
  | false =>
    rw [if_neg (by decide), if_pos (hl.resolve_left (by rw [hf]; decide))]
    obtain ⟨h1, h2⟩ := C56_list (T := W.tool) W.args.build W.args.force
    unfold Job.listConfigs Job.configsText Job.onGc
    rw [M.bind_def, M.bind_def]
    refine ⟨(fun h => by cases h), ?_⟩
    cases hx : (GC.listConfigs W.tool (GC.new W.args.build W.args.force)).1 with
    | ok l =>
      refine ⟨fun _ => ⟨fun _ _ => ?_, fun e he => ?_⟩, ?_, ?_⟩
      · rw [show (GC.listConfigs W.tool (Job.new W.args files input).gc).1 = .ok l from hx]; rfl
      · rw [h2 e he] at hx; cases hx
      · rw [show (GC.listConfigs W.tool (Job.new W.args files input).gc).1 = .ok l from hx]; rfl
      · rw [show (GC.listConfigs W.tool (Job.new W.args files input).gc).1 = .ok l from hx]; rfl
    | exc e =>
      rw [show (GC.listConfigs W.tool (Job.new W.args files input).gc).1 = .exc e from hx]
      refine ⟨fun _ => ⟨fun s hs => ?_, fun e' he => ?_⟩, rfl, rfl⟩
      · obtain ⟨l, hl, _⟩ := h1 s hs
        rw [hl] at hx; cases hx
      · rw [h2 e' he] at hx; cases hx; rfl
    | diverge =>
      rw [show (GC.listConfigs W.tool (Job.new W.args files input).gc).1 = .diverge from hx]
      refine ⟨fun _ => ⟨fun s hs => ?_, fun e' he => ?_⟩, rfl, rfl⟩
      · obtain ⟨l, hl, _⟩ := h1 s hs
        rw [hl] at hx; cases hx
      · rw [h2 e' he] at hx; cases hx

/-- C63: `main --save-load-env-args f` writes the arguments for LoadEnv to `f` and does nothing else: no configuration is looked for. -/
theorem C63_main_save (files : Dict Str Str) (input : List Str) (out loc f t : Str) (h1 : W.args.listFlags = false) (h2 : W.args.listConfigs = false)
    (hf : W.args.saveArgs = some f) (ht : Separated py!" " (loadEnvArgs W.args) t) :
    (Job.main W out loc (Job.new W.args files input)).1 = .ok () ∧
    OnlyChanged files (Job.main W out loc (Job.new W.args files input)).2.files f t ∧
    (Job.main W out loc (Job.new W.args files input)).2.input = input := by
  unfold Job.main
  rw [h1, h2, if_neg (by decide), if_neg (by decide), hf, separated_det ht]
  exact ⟨rfl, onlyChanged_set .., rfl⟩

/-- C63: `main --cmake-fragment file` does what `write_cmake_fragment` does on a new object. -/
theorem C63_main_fragment (files : Dict Str Str) (input : List Str) (out loc file : Str) (h1 : W.args.listFlags = false)
    (h2 : W.args.listConfigs = false) (h3 : W.args.saveArgs = none) (hf : W.args.fragment = some file) :
    (∀ c os t, Target W.tool W.args.build W.args.force c → W.gen c py!"cmake_fragment" = .ok os → Separated py!"\n" os t →
      ∃ r, Writing file t W.args.yes files input r (Job.main W out loc (Job.new W.args files input)).2.files
          (Job.main W out loc (Job.new W.args files input)).2.input ∧
        (∀ p, r = .ok p → (Job.main W out loc (Job.new W.args files input)).1 = .ok ()) ∧
        (∀ e, r = .exc e → (Job.main W out loc (Job.new W.args files input)).1 = .exc e)) ∧
    (∀ e, (∃ c, Target W.tool W.args.build W.args.force c ∧ W.gen c py!"cmake_fragment" = .exc e) ∨
        (GC.configForOptions W.tool (GC.new W.args.build W.args.force)).1 = .exc e →
      (Job.main W out loc (Job.new W.args files input)).1 = .exc e ∧
      (Job.main W out loc (Job.new W.args files input)).2.files = files ∧
      (Job.main W out loc (Job.new W.args files input)).2.input = input) := by
  have hm : Job.main W out loc (Job.new W.args files input) = (Job.writeFragment W >>= fun _ => pure ()) (Job.new W.args files input) := by
    unfold Job.main
    rw [h1, h2, if_neg (by decide), if_neg (by decide), h3, hf]
  obtain ⟨p1, p2⟩ := C63_fragment (W := W) files input [] (by rintro ⟨pre, post, v, h, _⟩; cases pre <;> cases h)
  rw [hm, M.bind_def]
  change (∀ c os t file, _ → _ → _ → _ → Writing file t W.args.yes files input (Job.writeFragment W (Job.new W.args files input)).1 _ _) at p1
  change (∀ e, _ → (Job.writeFragment W (Job.new W.args files input)).1 = _ ∧ _) at p2
  constructor
  · intro c os t hc hg ht
    have := p1 c os t file hc hg ht hf
    refine ⟨(Job.writeFragment W (Job.new W.args files input)).1, ?_⟩
    change Writing file t W.args.yes files input _ (Job.writeFragment W (Job.new W.args files input)).2.files
      (Job.writeFragment W (Job.new W.args files input)).2.input at this
    cases hx : Job.writeFragment W (Job.new W.args files input) with
    | mk r j' =>
      rw [hx] at this
      cases r with
      | ok p => exact ⟨this, fun _ _ => rfl, (fun _ h => by cases h)⟩
      | exc e => exact ⟨this, (fun _ h => by cases h), (fun _ h => by cases h; rfl)⟩
      | diverge => cases this
  · intro e he
    have := p2 e (he.elim (fun h => .inr (.inl h)) fun h => .inr (.inr h))
    change (Job.writeFragment W (Job.new W.args files input)).1 = _ ∧ (Job.writeFragment W (Job.new W.args files input)).2.files = files ∧
      (Job.writeFragment W (Job.new W.args files input)).2.input = input at this
    cases hx : Job.writeFragment W (Job.new W.args files input) with
    | mk r j' =>
      rw [hx] at this
      obtain ⟨t1, t2, t3⟩ := this
      dsimp only at t1
      subst t1
      exact ⟨rfl, t2, t3⟩

/-- C63: `main` with none of these options writes the flags to a new file and the path of that file to the file that the shell script
reads; if it fails, the new file is there, and empty, but the shell script is not told. -/
theorem C63_main_flags (files : Dict Str Str) (input : List Str) (out loc : Str) (hne : out ≠ loc) (h1 : W.args.listFlags = false)
    (h2 : W.args.listConfigs = false) (h3 : W.args.saveArgs = none) (h4 : W.args.fragment = none) :
    (∀ c os t, Target W.tool W.args.build W.args.force c → W.gen c py!"bash" = .ok os → Separated py!" \\\n    " os t →
      (Job.main W out loc (Job.new W.args files input)).1 = .ok () ∧
      Dict.get? (Job.main W out loc (Job.new W.args files input)).2.files out = some t ∧
      Dict.get? (Job.main W out loc (Job.new W.args files input)).2.files loc = some out ∧
      (∀ q, q ≠ out → q ≠ loc → Dict.get? (Job.main W out loc (Job.new W.args files input)).2.files q = Dict.get? files q)) ∧
    (∀ e, (∃ c, Target W.tool W.args.build W.args.force c ∧ W.gen c py!"bash" = .exc e) ∨
        (GC.configForOptions W.tool (GC.new W.args.build W.args.force)).1 = .exc e →
      (Job.main W out loc (Job.new W.args files input)).1 = .exc e ∧
      OnlyChanged files (Job.main W out loc (Job.new W.args files input)).2.files out []) ∧
    (Job.main W out loc (Job.new W.args files input)).2.input = input := by
  have hm : Job.main W out loc (Job.new W.args files input) = Job.writeFlags W out loc (Job.new W.args files input) := by
    unfold Job.main
    rw [h1, h2, if_neg (by decide), if_neg (by decide), h3, h4]
  have hp : Job.put out [] (Job.new W.args files input) = (.ok (), Job.new W.args (Dict.set files out []) input) := rfl
  rw [hm]
  unfold Job.writeFlags
  rw [M.bind_ok hp]
  obtain ⟨j', e, _, f1, f2, _⟩ := flags_step (jobInv_new (W := W) (Dict.set files out []) input)
  obtain ⟨p1, p2, p3, _⟩ := C63_flags (W := W) (Dict.set files out []) input []
  change (∀ c os t, _ → _ → _ → (Job.flagsStr W (Job.new W.args (Dict.set files out []) input)).1 = _) at p1
  change (∀ c e, _ → _ → (Job.flagsStr W (Job.new W.args (Dict.set files out []) input)).1 = _) at p2
  change (∀ e, _ → (Job.flagsStr W (Job.new W.args (Dict.set files out []) input)).1 = _) at p3
  rw [e] at p1 p2 p3
  dsimp only at p1 p2 p3
  refine ⟨fun c os t hc hg ht => ?_, fun x hx => ?_, ?_⟩
  · rw [p1 c os t hc hg ht] at e
    rw [M.bind_ok e]
    have hf : ((Job.put out t >>= fun _ => Job.put loc out) j') =
      (.ok (), { j' with files := Dict.set (Dict.set j'.files out t) loc out }) := rfl
    rw [hf]
    refine ⟨rfl, ?_, Dict.get?_set_self .., fun q hq hq' => ?_⟩
    · show Dict.get? (Dict.set (Dict.set j'.files out t) loc out) out = _
      rw [Dict.get?_set_ne _ _ hne, Dict.get?_set_self]
    · show Dict.get? (Dict.set (Dict.set j'.files out t) loc out) q = _
      rw [Dict.get?_set_ne _ _ hq', Dict.get?_set_ne _ _ hq, f1]
      exact Dict.get?_set_ne _ _ hq
  · have hr : flagsRes W = .exc x := by
      rcases hx with ⟨c, hc, hg⟩ | hx
      · exact p2 c x hc hg
      · exact p3 x hx
    rw [hr] at e
    rw [M.bind_exc e]
    refine ⟨rfl, ?_⟩
    show OnlyChanged files j'.files out []
    rw [f1]
    exact onlyChanged_set ..
  · cases hr : flagsRes W with
    | ok s => rw [hr] at e; rw [M.bind_ok e]; exact f2
    | exc x => rw [hr] at e; rw [M.bind_exc e]; exact f2
    | diverge => rw [hr] at e; rw [M.bind_diverge e]; exact f2

/-! ### Examples -/

/-- Options for one configuration. -/
def exGen (c generator : Str) : Out (List Str) :=
  if c = py!"machine-1_gnu-9-openmpi_mpi_teko" then
    if generator = py!"bash" then .ok [py!"-DA=1", py!"-DB=2", py!"-G=Ninja"] else .ok [py!"set(A 1)", py!"set(B 2)"]
  else .exc (.user py!"SectionNotFound")

def exArgs : GenArgs :=
  { build := py!"teko_gnu", force := false, ciMode := true, listConfigs := false, listFlags := false, fragment := some py!"/w/frag.cmake",
    yes := false, saveArgs := none, systemsFile := py!"/c/systems.ini", envsFile := py!"/c/envs.ini", specsFile := py!"/c/specs.ini",
    flagsFile := py!"/c/flags.ini", configsFile := py!"/c/config-specs.ini" }

def exSite : GenSite := { tool := toolGood, gen := exGen, args := exArgs }
def exOld : Dict Str Str := [(py!"/w/frag.cmake", py!"old"), (py!"/w/x", py!"y")]

/-- The configuration is found, so the first cases of C63_flags and C63_fragment apply. -/
example : Target exSite.tool exSite.args.build exSite.args.force py!"machine-1_gnu-9-openmpi_mpi_teko" :=
  (C63_target ..).1 (by decide +kernel)

/-- Refused, then accepted after an answer that is not recognised, then not written again. -/
example :
    let j := JobOp.run exSite [.fragment] (Job.new exArgs exOld [py!"No", py!"what", py!"yes", py!"rest"])
    (Job.writeFragment exSite (Job.new exArgs exOld [py!"No", py!"what", py!"yes", py!"rest"])).1 = .exc .systemExit ∧ j.files = exOld ∧
    (Job.writeFragment exSite j).1 = .ok py!"/w/frag.cmake" ∧
    Dict.get? (Job.writeFragment exSite j).2.files py!"/w/frag.cmake" = some py!"set(A 1)\nset(B 2)" ∧
    (Job.writeFragment exSite j).2.input = [py!"rest"] ∧
    (Job.writeFragment exSite (JobOp.run exSite [.fragment, .disk [], .flags] j)).1 = .ok py!"/w/frag.cmake" ∧
    (Job.writeFragment exSite (JobOp.run exSite [.fragment, .disk [], .flags] j)).2.files = [] := by
  refine ⟨?_, ?_, ?_, ?_, ?_, ?_, ?_⟩ <;> decide +kernel

/-- A history in which a fragment has been written, and one in which none has. -/
example : JobOp.Wrote exSite [.names .validate, .fragment, .fragment] (Job.new exArgs exOld [py!"n", py!"y"]) ∧
    ¬ JobOp.Wrote exSite [.fragment, .flags] (Job.new exArgs exOld [py!"n", py!"y"]) := by
  refine ⟨⟨[.names .validate, .fragment], [], .str py!"/w/frag.cmake", rfl, by decide +kernel⟩, ?_⟩
  rw [show JobOp.Wrote exSite [.fragment, .flags] (Job.new exArgs exOld [py!"n", py!"y"]) ↔ _ from
    ⟨fun h => (job_run (W := exSite) [.fragment, .flags] (jobInv_new exOld [py!"n", py!"y"])).2.2 (.inr h), fun h =>
      ((job_run (W := exSite) [.fragment, .flags] (jobInv_new exOld [py!"n", py!"y"])).2.1 h).resolve_left (by decide)⟩]
  decide +kernel

/-- The flags, and what the shell makes of them. -/
example : (Job.flagsStr exSite (Job.new exArgs exOld [])).1 = .ok py!"-DA=1 \\\n    -DB=2 \\\n    -G=Ninja" ∧
    ShellWords py!"-DA=1 \\\n    -DB=2 \\\n    -G=Ninja" [py!"-DA=1", py!"\\", py!"-DB=2", py!"\\", py!"-G=Ninja"] := by
  refine ⟨by decide +kernel, ?_⟩
  obtain ⟨l, h1, h2⟩ := C63_flags_words [py!"-DA=1", py!"-DB=2", py!"-G=Ninja"] py!"-DA=1 \\\n    -DB=2 \\\n    -G=Ninja"
    (joinStr_separated _ _) (by unfold OneWord; decide)
  refine (h2 _).2 ?_
  cases h1 with
  | more _ h1 => cases h1 with
    | more _ h1 => cases h1 with
      | one => rfl
      | more h _ => exact absurd rfl h

/-- The arguments for LoadEnv that are saved. -/
example : joinStr py!" " (loadEnvArgs exArgs) =
    py!"--supported-systems /c/systems.ini --supported-envs /c/envs.ini --environment-specs /c/specs.ini --ci-mode teko_gnu" ∧
    OneWord exArgs.build ∧ OneWord exArgs.systemsFile ∧ OneWord exArgs.envsFile ∧ OneWord exArgs.specsFile := by
  unfold OneWord; decide +kernel

/-- The four ways of `main`. -/
example :
    let w : Option Str → Option Str → Bool → Tool → GenSite := fun fr sv lf t =>
      { tool := t, gen := exGen, args := { exArgs with fragment := fr, saveArgs := sv, listFlags := lf } }
    let run := fun (W : GenSite) => Job.main W py!"/tmp/out" py!"/tmp/loc" (Job.new W.args [(py!"/tmp/loc", py!"/tmp/before")] [])
    (run (w none none true toolGood)).1 = .exc .systemExit ∧
    Dict.get? (run (w (some py!"/f") (some py!"/s") false toolBad)).2.files py!"/s" = some (joinStr py!" " (loadEnvArgs exArgs)) ∧
    Dict.get? (run (w (some py!"/f") none false toolGood)).2.files py!"/f" = some py!"set(A 1)\nset(B 2)" ∧
    Dict.get? (run (w none none false toolGood)).2.files py!"/tmp/loc" = some py!"/tmp/out" ∧
    (run (w none none false toolBad)).1 = .exc .valueError ∧
    (run (w none none false toolBad)).2.files = [(py!"/tmp/loc", py!"/tmp/before"), (py!"/tmp/out", [])] := by
  refine ⟨?_, ?_, ?_, ?_, ?_, ?_⟩ <;> decide +kernel

/-- The two lists of `main`, and a file of flags for which there is none. -/
example :
    (Job.configsText exSite (Job.new exArgs exOld [])).1 = .ok (py!"\n" ++ frame ++
      py!"\n|   INFO:  Please select one of the following complete configurations from\n|           /c/config-specs.ini\n|\n" ++
      py!"|     - machine-1_gnu-9-openmpi_mpi_none\n|\n" ++ frame ++ py!"\n") ∧
    (∃ t, (Job.flagsText exSite (Job.new exArgs exOld [])).1 = .ok t ∧ ('\n' :: frame).isPrefixOf t = true) ∧
    (let W : GenSite := { exSite with tool := { toolGood with flags := { sections := [(py!"configure-flags", [(py!"f", some py!"a\nb")])] } },
                                      args := { exArgs with listFlags := true } }
     (Job.main W py!"/o" py!"/l" (Job.new W.args exOld [])).1 = .exc .valueError) := by
  refine ⟨by decide +kernel, ⟨_, rfl, by decide +kernel⟩, by decide +kernel⟩

end CPE.Props
