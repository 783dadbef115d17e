import Verif.Spec.GenOutput
import Verif.Props.GenConfig
/-
Proofs about what GenConfig writes.
-/
namespace CPE.KW
open CPE CPE.Spec CPE.SetEnv CPE.KW.Spec CPE.Props

variable {W : GenSite}

/-- The state of an object with the arguments of `W` after some history of names. -/
def Reached (W : GenSite) (g : GC) : Prop := ∃ ops, g = GcOp.run W.tool ops (GC.new W.args.build W.args.force)

theorem gcRun_snoc (ops : List GcOp) (op : GcOp) (g : GC) :
    GcOp.run W.tool (ops ++ [op]) g = (GcOp.exec W.tool op (GcOp.run W.tool ops g)).2 := by
  induction ops generalizing g with
  | nil => rfl
  | cons o ops ih => exact ih _

theorem Reached.exec {g : GC} (h : Reached W g) (op : GcOp) : Reached W (GcOp.exec W.tool op g).2 := by
  obtain ⟨ops, rfl⟩ := h
  exact ⟨ops ++ [op], (gcRun_snoc ops op _).symm⟩

theorem Reached.options {g : GC} (h : Reached W g) : Reached W (GC.configForOptions W.tool g).2 := by
  have e1 := wrap_step (show GC.configForOptions W.tool g = ((GC.configForOptions W.tool g).1, (GC.configForOptions W.tool g).2) from rfl) GcVal.str
  have := h.exec .configForOptions
  rw [show GcOp.exec W.tool .configForOptions g = _ from e1] at this
  exact this

/-- What `configForOptions` gives. -/
def target (W : GenSite) : Out Str := (GC.configForOptions W.tool (GC.new W.args.build W.args.force)).1

/-- The options. -/
def optRes (W : GenSite) (generator : Str) : Out (List Str) := andThen (target W) fun c => W.gen c generator

theorem options_step {j : Job} (h : Reached W j.gc) (generator : Str) :
    Job.options W generator j = (optRes W generator, { j with gc := (GC.configForOptions W.tool j.gc).2 }) := by
  obtain ⟨ops, hg⟩ := h
  have := C56_options_history (T := W.tool) W.args.build W.args.force ops
  rw [← hg] at this
  unfold Job.options optRes target
  rw [← this, M.bind_def]
  unfold Job.onGc
  cases (GC.configForOptions W.tool j.gc).1 with
  | ok c => rfl
  | exc e => rfl
  | diverge => rfl

/-- The text of the flags. -/
def flagsRes (W : GenSite) : Out Str := andThen (optRes W py!"bash") fun os => .ok (joinStr py!" \\\n    " os)

/-- What is known of an object after any history. -/
structure JobInv (W : GenSite) (j : Job) : Prop where
  gc : Reached W j.gc
  flags : ∀ s, j.flags = some s → flagsRes W = .ok s
  file : ∀ p, j.fragmentFile = some p → W.args.fragment = some p

theorem jobInv_new (files : Dict Str Str) (input : List Str) : JobInv W (Job.new W.args files input) :=
  ⟨⟨[], rfl⟩, (fun _ h => by cases h), (fun _ h => by cases h)⟩

/-- The flags, and that nothing else changes. -/
theorem flags_step {j : Job} (h : JobInv W j) : ∃ j', Job.flagsStr W j = (flagsRes W, j') ∧ JobInv W j' ∧
    j'.files = j.files ∧ j'.input = j.input ∧ j'.fragmentFile = j.fragmentFile := by
  unfold Job.flagsStr
  rw [M.read_bind]
  cases hf : j.flags with
  | some s => exact ⟨j, by rw [h.flags s hf]; rfl, h, rfl, rfl, rfl⟩
  | none =>
    dsimp only
    have hs := options_step h.gc py!"bash"
    have hi : JobInv W { j with gc := (GC.configForOptions W.tool j.gc).2 } := ⟨h.gc.options, h.flags, h.file⟩
    unfold flagsRes
    cases ho : optRes W py!"bash" with
    | ok os =>
      rw [ho] at hs; rw [M.bind_ok hs]
      refine ⟨_, rfl, ⟨hi.gc, ?_, hi.file⟩, rfl, rfl, rfl⟩
      intro s hs
      cases hs
      rw [flagsRes, ho]; rfl
    | exc e => rw [ho] at hs; rw [M.bind_exc hs]; exact ⟨_, rfl, hi, rfl, rfl, rfl⟩
    | diverge => rw [ho] at hs; rw [M.bind_diverge hs]; exact ⟨_, rfl, hi, rfl, rfl, rfl⟩

/-! ### The question -/

theorem lowerFirst_y {c : Char} : lowerFirst c = 'y' ↔ c = 'y' ∨ c = 'Y' := by
  unfold lowerFirst
  by_cases h1 : c = 'Y'
  · rw [if_pos h1]; exact ⟨fun _ => .inr h1, fun _ => rfl⟩
  · rw [if_neg h1]
    by_cases h2 : c = 'N'
    · rw [if_pos h2]; subst h2; decide
    · rw [if_neg h2]; exact ⟨.inl, fun h => h.resolve_right h1⟩

theorem lowerFirst_n {c : Char} : lowerFirst c = 'n' ↔ c = 'n' ∨ c = 'N' := by
  unfold lowerFirst
  by_cases h1 : c = 'Y'
  · rw [if_pos h1]; subst h1; decide
  · rw [if_neg h1]
    by_cases h2 : c = 'N'
    · rw [if_pos h2]; exact ⟨fun _ => .inr h2, fun _ => rfl⟩
    · rw [if_neg h2]; exact ⟨.inl, fun h => h.resolve_right h2⟩

theorem ask_reply (input : List Str) : Reply input (ask input).1 (ask input).2 := by
  induction input with
  | nil => exact .ended
  | cons l rs ih =>
    cases l with
    | nil => exact .empty
    | cons c t =>
      unfold ask
      by_cases hy : lowerFirst c = 'y'
      · rw [if_pos hy]; exact .yes (lowerFirst_y.1 hy)
      · rw [if_neg hy]
        by_cases hn : lowerFirst c = 'n'
        · rw [if_pos hn]; exact .no (lowerFirst_n.1 hn)
        · rw [if_neg hn]
          refine .again ?_ ih
          intro hm
          simp only [List.mem_cons, List.not_mem_nil, or_false] at hm
          rcases hm with h | h | h | h
          · exact hy (lowerFirst_y.2 (.inl h))
          · exact hy (lowerFirst_y.2 (.inr h))
          · exact hn (lowerFirst_n.2 (.inl h))
          · exact hn (lowerFirst_n.2 (.inr h))

theorem reply_det {input : List Str} {r r' : Out Bool} {rest rest' : List Str} (h : Reply input r rest) (h' : Reply input r' rest') :
    r = r' ∧ rest = rest' := by
  have key : ∀ c : Char, c ∉ ['y', 'Y', 'n', 'N'] → (c = 'y' ∨ c = 'Y' → False) ∧ (c = 'n' ∨ c = 'N' → False) := by
    intro c h
    simp only [List.mem_cons, List.not_mem_nil, or_false, not_or] at h
    exact ⟨fun h1 => h1.elim h.1 h.2.1, fun h1 => h1.elim h.2.2.1 h.2.2.2⟩
  have yn : ∀ c : Char, (c = 'y' ∨ c = 'Y') → (c = 'n' ∨ c = 'N') → False := by
    rintro c (rfl | rfl) (h | h) <;> exact absurd h (by decide)
  induction h generalizing r' rest' with
  | yes hc =>
    cases h' with
    | yes => exact ⟨rfl, rfl⟩
    | no hc' => exact (yn _ hc hc').elim
    | again hc' _ => exact ((key _ hc').1 hc).elim
  | no hc =>
    cases h' with
    | yes hc' => exact (yn _ hc' hc).elim
    | no => exact ⟨rfl, rfl⟩
    | again hc' _ => exact ((key _ hc').2 hc).elim
  | again hc _ ih =>
    cases h' with
    | yes hc' => exact ((key _ hc).1 hc').elim
    | no hc' => exact ((key _ hc).2 hc').elim
    | again _ h' => exact ih h'
  | empty => cases h'; exact ⟨rfl, rfl⟩
  | ended => cases h'; exact ⟨rfl, rfl⟩

/-! ### The fragment -/

theorem onlyChanged_set (files : Dict Str Str) (file text : Str) : OnlyChanged files (Dict.set files file text) file text :=
  ⟨Dict.get?_set_self .., fun _ h => Dict.get?_set_ne _ _ h⟩

theorem onlyChanged_del (files : Dict Str Str) (file text : Str) : OnlyChanged files (Dict.set (dictDel files file) file text) file text :=
  ⟨Dict.get?_set_self .., fun _ h => (Dict.get?_set_ne _ _ h).trans (get?_dictDel_ne _ h)⟩

/-- Writing the fragment. -/
theorem put_step {j : Job} {file : Str} (hf : W.args.fragment = some file) (os : List Str) (hi : JobInv W j) :
    ∃ r j', Job.putFragment W os j = (r, j') ∧ Writing file (joinStr py!"\n" os) W.args.yes j.files j.input r j'.files j'.input ∧
      JobInv W j' ∧ (∀ p, r = .ok p → j'.fragmentFile = some file) ∧ ((∀ p, r ≠ .ok p) → j'.fragmentFile = j.fragmentFile) := by
  have hinv : ∀ fs inp, JobInv W { j with files := fs, input := inp, fragmentFile := some file } :=
    fun _ _ => ⟨hi.gc, hi.flags, fun p h => by cases h; exact hf⟩
  have hinv' : ∀ inp, JobInv W { j with input := inp } := fun _ => ⟨hi.gc, hi.flags, hi.file⟩
  unfold Job.putFragment
  rw [hf]
  dsimp only
  rw [M.bind_def]
  unfold Job.makeRoom
  cases hg : Dict.get? j.files file with
  | none => exact ⟨_, _, rfl, .fresh hg (onlyChanged_set ..), hinv _ _, fun _ _ => rfl, fun h => absurd rfl (h _)⟩
  | some old =>
    dsimp only [Option.isSome]
    rw [if_pos rfl]
    by_cases hy : W.args.yes = true
    · rw [if_pos hy]
      exact ⟨_, _, rfl, .unasked hg hy (onlyChanged_del ..), hinv _ _, fun _ _ => rfl, fun h => absurd rfl (h _)⟩
    · rw [if_neg hy]
      have hy' : W.args.yes = false := by cases h : W.args.yes with
        | true => exact absurd h hy
        | false => rfl
      have hr := ask_reply j.input
      cases ha : ask j.input with
      | mk r rest =>
        rw [ha] at hr
        cases r with
        | ok v =>
          cases v with
          | true => exact ⟨_, _, rfl, .agreed hg hy' hr (onlyChanged_del ..), hinv _ _, fun _ _ => rfl, fun h => absurd rfl (h _)⟩
          | false => exact ⟨_, _, rfl, .refused hg hy' hr, hinv' _, (fun _ h => by cases h), fun _ => rfl⟩
        | exc e => exact ⟨_, _, rfl, .unanswered hg hy' hr, hinv' _, (fun _ h => by cases h), fun _ => rfl⟩
        | diverge =>
          exfalso
          have : ∀ {i : List Str} {r : Out Bool} {re : List Str}, Reply i r re → r ≠ .diverge := by
            intro i r re h
            induction h with
            | again _ _ ih => exact ih
            | _ => intro h; cases h
          exact this hr rfl

/-- The fragment, if none has been written. -/
theorem fragment_step {j : Job} (h : JobInv W j) (hn : j.fragmentFile = none) :
    (∀ os file, optRes W py!"cmake_fragment" = .ok os → W.args.fragment = some file →
      ∃ r j', Job.writeFragment W j = (r, j') ∧ Writing file (joinStr py!"\n" os) W.args.yes j.files j.input r j'.files j'.input ∧
        JobInv W j' ∧ (∀ p, r = .ok p → j'.fragmentFile = some file) ∧ ((∀ p, r ≠ .ok p) → j'.fragmentFile = none)) ∧
    (∀ os, optRes W py!"cmake_fragment" = .ok os → W.args.fragment = none →
      ∃ j', Job.writeFragment W j = (.exc .attributeError, j') ∧ j'.files = j.files ∧ j'.input = j.input ∧ JobInv W j' ∧ j'.fragmentFile = none) ∧
    ((∀ os, optRes W py!"cmake_fragment" ≠ .ok os) →
      ∃ j', Job.writeFragment W j = (andThen (optRes W py!"cmake_fragment") (fun _ => .diverge), j') ∧ j'.files = j.files ∧ j'.input = j.input ∧
        JobInv W j' ∧ j'.fragmentFile = none) := by
  have hs := options_step h.gc py!"cmake_fragment"
  have hi : JobInv W { j with gc := (GC.configForOptions W.tool j.gc).2 } := ⟨h.gc.options, h.flags, h.file⟩
  unfold Job.writeFragment
  rw [M.read_bind, hn]
  dsimp only
  refine ⟨fun os file ho hf => ?_, fun os ho hf => ?_, fun hno => ?_⟩
  · rw [ho] at hs; rw [M.bind_ok hs]
    obtain ⟨r, j', h1, h2, h3, h4, h5⟩ := put_step hf os hi
    exact ⟨r, j', h1, h2, h3, h4, fun h => (h5 h).trans hn⟩
  · rw [ho] at hs; rw [M.bind_ok hs]
    refine ⟨{ j with gc := (GC.configForOptions W.tool j.gc).2 }, ?_, rfl, rfl, hi, hn⟩
    unfold Job.putFragment; rw [hf]; rfl
  · cases ho : optRes W py!"cmake_fragment" with
    | ok os => exact absurd ho (hno os)
    | exc e => rw [ho] at hs; rw [M.bind_exc hs]; exact ⟨_, rfl, rfl, rfl, hi, hn⟩
    | diverge => rw [ho] at hs; rw [M.bind_diverge hs]; exact ⟨_, rfl, rfl, rfl, hi, hn⟩

/-- The fragment, if one has been written. -/
theorem fragment_again {j : Job} {p : Str} (hp : j.fragmentFile = some p) : Job.writeFragment W j = (.ok p, j) := by
  unfold Job.writeFragment
  rw [M.read_bind, hp]; rfl

/-- `writeFragment` in general: whether the file has been written is what the outcome says. -/
theorem fragment_inv {j : Job} (h : JobInv W j) : JobInv W (Job.writeFragment W j).2 ∧
    ((∃ p, (Job.writeFragment W j).1 = .ok p) ↔ (Job.writeFragment W j).2.fragmentFile.isSome = true) ∧
    (j.fragmentFile.isSome = true → (Job.writeFragment W j).2.fragmentFile.isSome = true) := by
  cases hp : j.fragmentFile with
  | some p => rw [fragment_again hp]; refine ⟨h, ?_, ?_⟩ <;> rw [hp] <;> simp
  | none =>
    obtain ⟨h1, h2, h3⟩ := fragment_step h hp
    refine ⟨?_, ?_, fun h => by cases h⟩ <;>
    · by_cases ho : ∃ os, optRes W py!"cmake_fragment" = .ok os
      · obtain ⟨os, ho⟩ := ho
        cases hf : W.args.fragment with
        | none =>
          obtain ⟨j', e, _, _, i, n⟩ := h2 os ho hf
          rw [e]
          first | exact i | (rw [n]; simp)
        | some file =>
          obtain ⟨r, j', e, _, i, y, n⟩ := h1 os file ho hf
          rw [e]
          first
          | exact i
          | (cases r with
            | ok p => rw [y p rfl]; simp
            | exc e => rw [n fun _ h => by cases h]; simp
            | diverge => rw [n fun _ h => by cases h]; simp)
      · have hno : ∀ os, optRes W py!"cmake_fragment" ≠ .ok os := fun os h => ho ⟨os, h⟩
        obtain ⟨j', e, _, _, i, n⟩ := h3 hno
        rw [e]
        first
        | exact i
        | (rw [n]
           cases hx : optRes W py!"cmake_fragment" with
           | ok os => exact absurd hx (hno os)
           | exc e => simp [andThen]
           | diverge => simp [andThen])

theorem wrapped {W' α : Type} (m : M W' α) (f : α → GcVal) (j : W') :
    ((m >>= fun s => pure (f s)) j).2 = (m j).2 ∧ ((∃ v, ((m >>= fun s => pure (f s)) j).1 = .ok v) ↔ ∃ v, (m j).1 = .ok v) := by
  rw [M.bind_def]
  cases h : m j with
  | mk r j' =>
    cases r with
    | ok a => exact ⟨rfl, ⟨fun _ => ⟨a, rfl⟩, fun _ => ⟨f a, rfl⟩⟩⟩
    | exc e => exact ⟨rfl, ⟨(fun ⟨_, h⟩ => by cases h), (fun ⟨_, h⟩ => by cases h)⟩⟩
    | diverge => exact ⟨rfl, ⟨(fun ⟨_, h⟩ => by cases h), (fun ⟨_, h⟩ => by cases h)⟩⟩

theorem job_exec {j : Job} (h : JobInv W j) (op : JobOp) : JobInv W (JobOp.exec W op j).2 ∧
    (j.fragmentFile.isSome = true → (JobOp.exec W op j).2.fragmentFile.isSome = true) ∧
    ((JobOp.exec W op j).2.fragmentFile.isSome = true → j.fragmentFile.isSome = true ∨
      (op = .fragment ∧ ∃ v, (JobOp.exec W op j).1 = .ok v)) ∧
    (op = .fragment → (∃ v, (JobOp.exec W op j).1 = .ok v) → (JobOp.exec W op j).2.fragmentFile.isSome = true) := by
  cases op with
  | names op => exact ⟨⟨h.gc.exec op, h.flags, h.file⟩, fun h => h, fun h => .inl h, fun h => by cases h⟩
  | flags =>
    obtain ⟨j', e, i, _, _, n⟩ := flags_step h
    rw [show (JobOp.exec W .flags j).2 = j' from by
      show ((Job.flagsStr W >>= fun s => pure (GcVal.str s)) j).2 = _
      rw [(wrapped _ _ _).1, e]]
    rw [n]
    exact ⟨i, fun h => h, fun h => .inl h, fun h => by cases h⟩
  | fragment =>
    obtain ⟨h1, h2, h3⟩ := fragment_inv h
    have hw := wrapped (Job.writeFragment W) GcVal.str j
    have hx : JobOp.exec W .fragment j = (Job.writeFragment W >>= fun s => pure (GcVal.str s)) j := rfl
    rw [hx, hw.1]
    refine ⟨h1, h3, fun h => ?_, fun _ hv => ?_⟩
    · exact .inr ⟨rfl, hw.2.2 (h2.2 h)⟩
    · exact h2.1 (hw.2.1 hv)
  | disk files => exact ⟨⟨h.gc, h.flags, h.file⟩, fun h => h, fun h => .inl h, fun h => by cases h⟩

theorem job_run (ops : List JobOp) {j : Job} (h : JobInv W j) : JobInv W (JobOp.run W ops j) ∧
    ((JobOp.run W ops j).fragmentFile.isSome = true ↔ j.fragmentFile.isSome = true ∨ JobOp.Wrote W ops j) := by
  induction ops generalizing j with
  | nil =>
    refine ⟨h, ⟨fun h => .inl h, fun hx => hx.elim id ?_⟩⟩
    rintro ⟨pre, post, v, h, _⟩
    cases pre <;> cases h
  | cons op ops ih =>
    obtain ⟨h1, h2, h3, h4⟩ := job_exec h op
    obtain ⟨i1, i2⟩ := ih h1
    refine ⟨i1, i2.trans ⟨?_, ?_⟩⟩
    · rintro (hx | ⟨pre, post, v, rfl, hv⟩)
      · rcases h3 hx with h3 | ⟨rfl, v, hv⟩
        · exact .inl h3
        · exact .inr ⟨[], ops, v, rfl, hv⟩
      · exact .inr ⟨op :: pre, post, v, rfl, hv⟩
    · rintro (hx | ⟨pre, post, v, he, hv⟩)
      · exact .inl (h2 hx)
      · cases pre with
        | nil => cases he; exact .inl (h4 rfl ⟨v, hv⟩)
        | cons o pre => cases he; exact .inr ⟨pre, post, v, rfl, hv⟩

/-! ### Texts -/

theorem joinStr_separated (sep : Str) (ws : List Str) : Separated sep ws (joinStr sep ws) := by
  induction ws with
  | nil => exact .none
  | cons w ws ih =>
    cases ws with
    | nil => exact .one
    | cons x xs => exact .more (by simp) ih

theorem separated_det {sep : Str} {ws : List Str} {t : Str} (h : Separated sep ws t) : t = joinStr sep ws := by
  induction h with
  | none => rfl
  | one => rfl
  | @more w ws t hne _ ih =>
    cases ws with
    | nil => exact absurd rfl hne
    | cons x xs => rw [ih]; rfl

theorem shell_spaces {sp s : Str} {ws : List Str} (hsp : ∀ c ∈ sp, c ∈ [' ', '\t', '\n']) (h : ShellWords s ws) : ShellWords (sp ++ s) ws := by
  induction sp with
  | nil => exact h
  | cons c sp ih => exact .space (hsp c (List.mem_cons_self ..)) (ih fun x hx => hsp x (List.mem_cons_of_mem _ hx))

theorem shell_join {ws : List Str} {t : Str} (h : Separated py!" " ws t) (hw : ∀ w ∈ ws, OneWord w) : ShellWords t ws := by
  induction h with
  | none => exact .nil
  | @one w =>
    have := hw w (List.mem_cons_self ..)
    have h2 := ShellWords.word (s := []) this.1 this.2 (by simp) .nil
    rwa [List.append_nil] at h2
  | @more w ws t _ _ ih =>
    have := hw w (List.mem_cons_self ..)
    rw [List.append_assoc]
    refine .word this.1 this.2 ?_ (.space (by decide) (ih fun x hx => hw x (List.mem_cons_of_mem _ hx)))
    intro c hc
    cases hc
    decide

theorem shell_flags {ws : List Str} {t : Str} (h : Separated py!" \\\n    " ws t) (hw : ∀ w ∈ ws, OneWord w) :
    ∃ l, Between py!"\\" ws l ∧ ShellWords t l := by
  induction h with
  | none => exact ⟨[], .none, .nil⟩
  | @one w =>
    have := hw w (List.mem_cons_self ..)
    have h2 := ShellWords.word (s := []) this.1 this.2 (by simp) .nil
    rw [List.append_nil] at h2
    exact ⟨[w], .one, h2⟩
  | @more w ws t hne _ ih =>
    obtain ⟨l, h1, h2⟩ := ih fun x hx => hw x (List.mem_cons_of_mem _ hx)
    have := hw w (List.mem_cons_self ..)
    refine ⟨_, .more hne h1, ?_⟩
    rw [List.append_assoc]
    refine .word this.1 this.2 ?_ ?_
    · intro c hc; cases hc; decide
    · refine .space (c := ' ') (by decide) ?_
      refine .word (w := py!"\\") (s := py!"\n    " ++ t) (by decide) (by decide) ?_ (shell_spaces (by decide) h2)
      intro c hc; cases hc; decide

theorem shell_det {t : Str} {l l' : List Str} (h : ShellWords t l) (h' : ShellWords t l') : l = l' := by
  induction h generalizing l' with
  | nil =>
    generalize ht : ([] : Str) = t at h'
    cases h' with
    | nil => rfl
    | space => cases ht
    | word hne => 
      rw [eq_comm, List.append_eq_nil_iff] at ht
      exact absurd ht.1 hne
  | @space c s ws hc _ ih =>
    generalize ht : c :: s = t at h'
    cases h' with
    | nil => cases ht
    | space _ h2 => cases ht; exact ih h2
    | @word w s' ws' hne hw _ _ =>
      cases w with
      | nil => exact absurd rfl hne
      | cons x w => cases ht; exact absurd hc (hw _ (List.mem_cons_self ..))
  | @word w s ws hne hw hs _ ih =>
    generalize ht : w ++ s = t at h'
    cases h' with
    | nil => rw [List.append_eq_nil_iff] at ht; exact absurd ht.1 hne
    | space hc _ =>
      cases w with
      | nil => exact absurd rfl hne
      | cons x w => cases ht; exact absurd hc (hw _ (List.mem_cons_self ..))
    | @word w' s' ws' hne' hw' hs' h2 =>
      have : w = w' ∧ s = s' := by
        clear ih h2 hne hne'
        induction w generalizing w' with
        | nil =>
          cases w' with
          | nil => exact ⟨rfl, ht⟩
          | cons x w' =>
            exfalso
            have : x ∈ s.head? := by rw [show s = _ from ht]; rfl
            exact hw' x (List.mem_cons_self ..) (hs x this)
        | cons x w ihw =>
          cases w' with
          | nil =>
            exfalso
            have : x ∈ s'.head? := by rw [← (show _ = s' from ht)]; rfl
            exact hw x (List.mem_cons_self ..) (hs' x this)
          | cons y w' =>
            simp only [List.cons_append, List.cons.injEq] at ht
            obtain ⟨rfl, ht⟩ := ht
            obtain ⟨h1, h2⟩ := ihw (fun c hc => hw c (List.mem_cons_of_mem _ hc)) (fun c hc => hw' c (List.mem_cons_of_mem _ hc)) ht
            exact ⟨by rw [h1], h2⟩
      obtain ⟨rfl, rfl⟩ := this
      rw [ih h2]

end CPE.KW
