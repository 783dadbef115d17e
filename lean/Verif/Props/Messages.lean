import Verif.Proofs.Messages
import Verif.Props.Keywords
import Verif.Props.ConfigKeywords
/-
C64: the messages of the keyword tools.
-/
namespace CPE.Props
open CPE CPE.Spec CPE.SetEnv CPE.KW CPE.KW.Spec
section
variable {E : Env Unit Unit} {n : Nat} {d : Options}

/-- C64: every text has exactly one list of lines. -/
theorem C64_lines (s : Str) : ∃ ls, Lines s ls ∧ ∀ ls', Lines s ls' → ls' = ls :=
  ⟨_, lines_exist s, fun _ h => lines_unique h (lines_exist s)⟩

/-- C64: the formatted message is determined by the lines of the message, its kind and the lines of the extra text: a frame,
the message with its kind before the first line, the extra text, and the frame again, no line ending in white space. -/
theorem C64_format {msg kind extras : Str} {ls es : List Str} (hk : '\n' ∉ kind) (hm : Lines msg ls) (he : Lines extras es) :
    Message ls kind es (formattedMsg msg kind extras) ∧ ∀ t, Message ls kind es t → t = formattedMsg msg kind extras :=
  ⟨formatted_message hk hm he, fun _ h => message_unique h (formatted_message hk hm he)⟩

/-- C64: the message for a list has one line for every item, in order, and the extra text after them. -/
theorem C64_list {msg kind extras : Str} {items ls es : List Str} (hk : '\n' ∉ kind) (hi : ∀ i ∈ items, OneLine i)
    (hm : Lines msg ls) (he : Lines extras es) :
    Message ls kind (items.map (py!"  - " ++ ·) ++ es) (msgForList msg items kind extras) := by
  refine formatted_message hk hm ?_
  have h := lines_unlines (ls := items.map (py!"  - " ++ ·)) (by
    intro l hl
    obtain ⟨y, hy, rfl⟩ := List.mem_map.1 hl
    exact oneLine_append (oneLine_of_isBreak (by decide)) (hi y hy)) he
  have e : (items.flatMap fun i => py!"  - " ++ i ++ py!"\n") = unlines (items.map (py!"  - " ++ ·)) := by
    simp [unlines, List.flatMap_map]
  rw [e]
  exact h

/-- C64: the message with the supported flags, at any point of any history of a ConfigKeywordParser: every flag in the order
of the file with its type and its options, the first one marked as the default. Nothing is changed. -/
theorem C64_flags {b : Str} {k : CKP} (h : CKP.new E n b = .ok k) {o1 : CObj}
    (hr : edGetItem E n flagSection (Obj.fresh E ()) = (.ok d, o1)) {fl : List Flag} (hd : Lists d fl)
    (hf : ∀ f ∈ fl, FlagOnLines f) (ops : List CkpOp) {path msg kind : Str} {ls : List Str} (hp : OneLine path) (hk : '\n' ∉ kind)
    (hm : Lines msg ls) :
    ∃ es text, FlagsShown fl es ∧ (∀ es', FlagsShown fl es' → es' = es) ∧
      Message ls kind ([[], py!"- Supported Flags Are:"] ++ es ++ [[], py!"See " ++ path ++ py!" for details."]) text ∧
      CKP.flagsMsg E n path msg kind (CkpOp.run E n ops k) = (.ok text, CkpOp.run E n ops k) := by
  obtain ⟨d', o1', hr', hinv, _⟩ := ckpNew_ok h
  rw [hr] at hr'
  cases hr'
  have hg := getItem_again hr n
  have hinv' := run_inv hg ops hinv
  have hread := flagsMsg_read hg hinv' path msg kind
  obtain ⟨es, hes, e⟩ := flagListRes_ok (d := d) (fl := fl) fun f hfm => by
    have hkey : f.name ∈ Dict.keys d := by rw [← hd.names]; exact List.mem_map.2 ⟨f, hfm, rfl⟩
    exact typeRes_good hkey (hd.rules _ hkey) (hd.values f hfm) (hd.types f hfm)
  rw [hd.names] at e
  rw [e] at hread
  refine ⟨es, _, hes, fun _ h' => flagsShown_unique h' hes, ?_, hread⟩
  refine formatted_message hk hm ?_
  have hlast : Lines (py!"See " ++ path ++ py!" for details.") [py!"See " ++ path ++ py!" for details."] :=
    .last (by simp) (oneLine_append (oneLine_append (oneLine_of_isBreak (by decide)) hp) (oneLine_of_isBreak (by decide)))
  have hl := lines_unlines (ls := [[], py!"- Supported Flags Are:"] ++ es ++ [[]]) (by
    intro l hl
    rcases List.mem_append.1 hl with hl | hl
    · rcases List.mem_append.1 hl with hl | hl
      · rcases List.mem_cons.1 hl with rfl | hl
        · exact oneLine_of_isBreak rfl
        · rw [List.mem_singleton.1 hl]; exact oneLine_of_isBreak (by decide)
      · exact flagsShown_oneLine hes hd.types hf l hl
    · rw [List.mem_singleton.1 hl]; exact oneLine_of_isBreak rfl) hlast
  have e1 : ([[], py!"- Supported Flags Are:"] ++ es ++ [[], py!"See " ++ path ++ py!" for details."] : List Str) =
      [[], py!"- Supported Flags Are:"] ++ es ++ [[]] ++ [py!"See " ++ path ++ py!" for details."] := by simp
  rw [e1]
  have e2 : py!"\n- Supported Flags Are:\n" ++ unlines es ++ (py!"\nSee " ++ path ++ py!" for details.") =
      unlines ([[], py!"- Supported Flags Are:"] ++ es ++ [[]]) ++ (py!"See " ++ path ++ py!" for details.") := by
    simp [unlines]
  rw [e2]
  exact hl

/-- C64: if the first key that is not a good flag is `f`, the message with the supported flags fails as the queries do: SystemExit
if its values break the rules, IndexError if it has no value, ValueError if its first value is not a type. -/
theorem C64_flags_bad {b : Str} {k : CKP} (h : CKP.new E n b = .ok k) {o1 : CObj}
    (hr : edGetItem E n flagSection (Obj.fresh E ()) = (.ok d, o1)) {pre post : List Str} {f : Str}
    (e : Dict.keys d = pre ++ f :: post) (hok : ∀ g ∈ pre, GoodKey d g) {x : PyExc}
    (hx : (¬ Acceptable d (valuesIn d f) ∧ x = .systemExit) ∨ (valuesIn d f = [] ∧ x = .indexError) ∨
      (Acceptable d (valuesIn d f) ∧ (∃ t opts, valuesIn d f = t :: opts ∧ t ≠ py!"SELECT_ONE" ∧ t ≠ py!"SELECT_MANY") ∧
        x = .valueError)) (ops : List CkpOp) (path msg kind : Str) :
    CKP.flagsMsg E n path msg kind (CkpOp.run E n ops k) = (.exc x, CkpOp.run E n ops k) := by
  obtain ⟨d', o1', hr', hinv, _⟩ := ckpNew_ok h
  rw [hr] at hr'
  cases hr'
  have hg := getItem_again hr n
  have hf : f ∈ Dict.keys d := by rw [e]; simp
  have ht : typeRes d f = .exc x := by
    rcases hx with ⟨ha, rfl⟩ | ⟨ha, rfl⟩ | ⟨ha, ⟨t, opts, h0, h1, h2⟩, rfl⟩
    · exact (typeRes_bad hf).1 ha
    · exact (typeRes_bad hf).2.1 ha
    · exact (typeRes_bad hf).2.2 t opts ha h0 h1 h2
  rw [flagsMsg_read hg (run_inv hg ops hinv), e, flagListRes_fails (fun g hg => ?_) ht]
  · rfl
  · obtain ⟨ha, t, opts, hv, ht⟩ := hok g hg
    exact ⟨_, typeRes_good (by rw [e]; simp [hg]) ha hv ht⟩

/-- Reading `qualified_env_name` leaves alone what the message with the environments is made of. -/
theorem ekp_kept {sys : Str} {o1 : CObj} (h : edGetItem E n sys o1 = (.ok d, o1)) (ha : AllAcceptable d) (hs : List Host) {k : EKP}
    (h1 : k.obj = o1) (h2 : k.systemName = sys) (h3 : k.envNames = sortByLen (Dict.keys d)) :
    let k' := hs.foldl (fun k H => (EKP.qualifiedEnvName E n H k).2) k
    k'.obj = o1 ∧ k'.systemName = sys ∧ k'.envNames = sortByLen (Dict.keys d) := by
  induction hs generalizing k with
  | nil => exact ⟨h1, h2, h3⟩
  | cons H hs ih =>
    have : (EKP.qualifiedEnvName E n H k).2.obj = o1 ∧ (EKP.qualifiedEnvName E n H k).2.systemName = sys ∧
        (EKP.qualifiedEnvName E n H k).2.envNames = sortByLen (Dict.keys d) := by
      unfold EKP.qualifiedEnvName
      split
      · exact ⟨h1, h2, h3⟩
      · split
        · exact ⟨h1, h2, h3⟩
        · exact ⟨h1, h2, h3⟩
        · exact ⟨h1, h2, h3⟩
        · split
          · exact ⟨h1, h2, h3⟩
          · exact ⟨h1, h2, h3⟩
          · exact ⟨h1, h2, h3⟩
          · next al _ =>
            rw [h1, h2]
            rcases getKey_ok h ha al with ⟨x, _, e⟩ | ⟨_, e⟩ <;> rw [e] <;> exact ⟨rfl, rfl, h3⟩
    exact ih this.1 this.2.1 this.2.2

/-- C64: the message with the supported environments never fails once the EnvKeywordParser was constructed, whatever was asked
before, and changes nothing. It shows every environment of the system in alphabetical order, and below it its aliases in
alphabetical order, if it has any. -/
theorem C64_environments {build sys : Str} {k : EKP} (h : EKP.new E n build sys = .ok k) {o1 : CObj}
    (hr : edGetItem E n sys (Obj.fresh E ()) = (.ok d, o1)) (hs : List Host) (path msg kind : Str) :
    let k' := hs.foldl (fun k H => (EKP.qualifiedEnvName E n H k).2) k
    ∃ text, EKP.envsMsg E n path msg kind k' = (.ok text, k') ∧
      ∀ ls, Lines msg ls → '\n' ∉ kind → OneLine path → OneLine sys → (∀ e ∈ Dict.keys d, OneLine e) →
        (∀ e ∈ Dict.keys d, ∀ v ∈ valuesIn d e, OneLine v) →
        ∃ names es, InOrder (Dict.keys d) names ∧ EnvsShown d names es ∧ (∀ es', EnvsShown d names es' → es' = es) ∧
          Message ls kind ([[], py!"- Supported Environments for '" ++ sys ++ py!"':"] ++ es ++
            [[], py!"See `" ++ path ++ py!"` for details on the available environments.", [],
             py!"To force-load an environment see the guidance in the `--help` output.", []]) text := by
  obtain ⟨d', o1', hr', ha, _, hk⟩ := ekpNew_ok h
  rw [hr] at hr'
  cases hr'
  have hg := getItem_again hr n
  have hkept := ekp_kept hg ha hs (k := k) (by rw [hk]) (by rw [hk]) (by rw [hk])
  intro k'
  obtain ⟨h1, h2, h3⟩ : k'.obj = o1 ∧ k'.systemName = sys ∧ k'.envNames = sortByLen (Dict.keys d) := hkept
  have hmem : ∀ e, e ∈ sortStrs k'.envNames ↔ e ∈ Dict.keys d := by
    intro e; rw [mem_sortStrs, h3, mem_sortByLen]
  obtain ⟨es, hes, e⟩ := envsLoop_ok (es := sortStrs k'.envNames) hg fun x hx =>
    ⟨(hmem x).1 hx, ha x ((hmem x).1 hx)⟩
  have hmsg : EKP.envsMsg E n path msg kind k' = (.ok (formattedMsg msg kind (py!"\n- Supported Environments for '" ++ sys ++ py!"':\n" ++ unlines es ++
      (py!"\nSee `" ++ path ++ py!"` for details on the available environments.\n") ++ py!"\n" ++
      py!"To force-load an environment see the guidance in the `--help` output.\n" ++ py!"\n")), k') := by
    have e' : envsLoop E n k'.systemName (sortStrs k'.envNames) k'.obj = (.ok (unlines es), k'.obj) := by rw [h1, h2]; exact e
    unfold EKP.envsMsg
    rw [e', ← h2]
  refine ⟨_, hmsg, fun ls hm hkd hp hsys hn hv => ⟨sortStrs k'.envNames, es, ?_, hes, fun _ h' => envsShown_unique h' hes, ?_⟩⟩
  · refine ⟨(perm_sortStrs _).trans ?_, sorted_sortStrs _⟩
    rw [h3]
    exact perm_sortByLen _
  · refine formatted_message hkd hm ?_
    have hl := lines_unlines (s := []) (rs := []) (ls := [[], py!"- Supported Environments for '" ++ sys ++ py!"':"] ++ es ++
            [[], py!"See `" ++ path ++ py!"` for details on the available environments.", [],
             py!"To force-load an environment see the guidance in the `--help` output.", []]) (by
      intro l hl
      rcases List.mem_append.1 hl with hl | hl
      · rcases List.mem_append.1 hl with hl | hl
        · rcases List.mem_cons.1 hl with rfl | hl
          · exact oneLine_of_isBreak rfl
          · rw [List.mem_singleton.1 hl]
            exact oneLine_append (oneLine_append (oneLine_of_isBreak (by decide)) hsys) (oneLine_of_isBreak (by decide))
        · exact envsShown_oneLine hes (fun x hx => hn x ((hmem x).1 hx)) (fun x hx => hv x ((hmem x).1 hx)) l hl
      · simp only [List.mem_cons, List.not_mem_nil, or_false] at hl
        rcases hl with rfl | rfl | rfl | rfl | rfl
        · exact oneLine_of_isBreak rfl
        · exact oneLine_append (oneLine_append (oneLine_of_isBreak (by decide)) hp) (oneLine_of_isBreak (by decide))
        · exact oneLine_of_isBreak rfl
        · exact oneLine_of_isBreak (by decide)
        · exact oneLine_of_isBreak rfl) .none
    rw [List.append_nil, List.append_nil] at hl
    have e2 : py!"\n- Supported Environments for '" ++ sys ++ py!"':\n" ++ unlines es ++
        (py!"\nSee `" ++ path ++ py!"` for details on the available environments.\n") ++ py!"\n" ++
        py!"To force-load an environment see the guidance in the `--help` output.\n" ++ py!"\n" =
        unlines ([[], py!"- Supported Environments for '" ++ sys ++ py!"':"] ++ es ++
          [[], py!"See `" ++ path ++ py!"` for details on the available environments.", [],
           py!"To force-load an environment see the guidance in the `--help` output.", []]) := by
      simp [unlines]
    rw [e2]
    exact hl

/-! ### Examples -/

/-- Kinds of line ends, an empty line, white space at the end of a line. -/
example : Lines py!"one  \r\n\ntwo\x0bthree" [py!"one  ", [], py!"two", py!"three"] := by
  have h := lines_exist py!"one  \r\n\ntwo\x0bthree"
  have e : splitLines py!"one  \r\n\ntwo\x0bthree" = [py!"one  ", [], py!"two", py!"three"] := by decide +kernel
  rwa [e] at h

example : formattedMsg py!"No file \n\n'x'." py!"ERROR" py!"\n- a" =
    py!"\n" ++ frame ++ py!"\n|   ERROR:  No file\n|\n|           'x'.\n|\n|   - a\n" ++ frame ++ py!"\n" := by decide +kernel

example : msgForList py!"Pick:" [py!"a", py!"b"] py!"INFO" py!"done" =
    py!"\n" ++ frame ++ py!"\n|   INFO:  Pick:\n|     - a\n|     - b\n|   done\n" ++ frame ++ py!"\n" := by decide +kernel

/-- The hypotheses of C64_flags hold, and this is the message. -/
example : ∃ d o1, edGetItem (cls flagsCfg) 10 flagSection (Obj.fresh (cls flagsCfg) ()) = (.ok d, o1) ∧ Lists d flags0 ∧
    ∀ f ∈ flags0, FlagOnLines f := by
  refine ⟨_, _, rfl, ⟨rfl, ?_, ?_, ?_⟩, ?_⟩
  · decide +kernel
  · decide +kernel
  · intro k hk
    have hk' : k = py!"use-mpi" ∨ k = py!"packages" := by simpa using (show k ∈ [py!"use-mpi", py!"packages"] from hk)
    rcases hk' with rfl | rfl <;> exact ⟨by decide +kernel, by decide +kernel, by decide +kernel⟩
  · have h : (flags0.all fun f => f.name.all (fun c => !isBreak c) && f.options.all fun o => o.all fun c => !isBreak c) = true := by
      decide +kernel
    intro f hf
    have := List.all_eq_true.1 h f hf
    rw [Bool.and_eq_true] at this
    exact ⟨oneLine_of_isBreak this.1, fun o ho => oneLine_of_isBreak (List.all_eq_true.1 this.2 o ho)⟩

/-- The message of a function on an object that was constructed. -/
def msgOf {K : Type} (k : Out K) (f : M K Str) : Out Str :=
  match k with
  | .ok k => (f k).1
  | .exc e => .exc e
  | .diverge => .diverge

example : msgOf (CKP.new (cls flagsCfg) 10 py!"env") (CKP.flagsMsg (cls flagsCfg) 10 py!"flags.ini" py!"Bad." py!"ERROR") =
    .ok (py!"\n" ++ frame ++ py!"\n|   ERROR:  Bad.\n|\n|   - Supported Flags Are:\n|     - use-mpi\n|       * Options (SELECT_ONE):\n" ++
      py!"|         - mpi (default)\n|         - no-mpi\n|     - packages\n|       * Options (SELECT_MANY):\n|         - none (default)\n" ++
      py!"|         - teko\n|         - belos\n|\n|   See flags.ini for details.\n" ++ frame ++ py!"\n") := by decide +kernel

/-- A flag without options, and one without a type. -/
example : msgOf (CKP.new (cls { sections := [(flagSection, [(py!"f", some py!"SELECT_ONE")])] }) 10 py!"env")
      (CKP.flagsMsg (cls { sections := [(flagSection, [(py!"f", some py!"SELECT_ONE")])] }) 10 py!"p" py!"m" py!"I") =
    .ok (py!"\n" ++ frame ++ py!"\n|   I:  m\n|\n|   - Supported Flags Are:\n|     - f\n|       * Option (SELECT_ONE):\n|\n" ++
      py!"|   See p for details.\n" ++ frame ++ py!"\n") ∧
    msgOf (CKP.new (cls { sections := [(flagSection, [(py!"f", some py!"a\nb")])] }) 10 py!"env")
      (CKP.flagsMsg (cls { sections := [(flagSection, [(py!"f", some py!"a\nb")])] }) 10 py!"p" py!"m" py!"I") = .exc .valueError := by
  decide +kernel

example : msgOf (EKP.new (cls envsCfg) 10 py!"x" py!"sys-2") (EKP.envsMsg (cls envsCfg) 10 py!"envs.ini" py!"No match." py!"ERROR") =
    .ok (py!"\n" ++ frame ++ py!"\n|   ERROR:  No match.\n|\n|   - Supported Environments for 'sys-2':\n|     - intel-18.0.5-mpich\n" ++
      py!"|       * Aliases:\n|         - intel\n|         - intel-18\n|     - intel-19\n|       * Aliases:\n|         - default-env\n|\n" ++
      py!"|   See `envs.ini` for details on the available environments.\n|\n" ++
      py!"|   To force-load an environment see the guidance in the `--help` output.\n|\n" ++ frame ++ py!"\n") := by decide +kernel

end
end CPE.Props
