import Verif.Proofs.ConfigKeywords
import Verif.Props.Keywords
/-
C53: ConfigKeywordParser.
-/
namespace CPE.Props
open CPE CPE.Spec CPE.SetEnv CPE.KW CPE.KW.Spec

section
variable {E : Env Unit Unit} {n : Nat} {d : Options}

/-- C53: a new object reads the section "configure-flags"; if that fails, so does the constructor. -/
theorem C53_constructor (build : Str) :
    (∀ d o1, edGetItem E n flagSection (Obj.fresh E ()) = (.ok d, o1) → ∃ k, CKP.new E n build = .ok k) ∧
    (∀ e o1, edGetItem E n flagSection (Obj.fresh E ()) = (.exc e, o1) → CKP.new E n build = .exc e) := by
  refine ⟨fun d o1 h => ?_, fun e o1 h => ?_⟩
  · unfold CKP.new; rw [h]; exact ⟨_, rfl⟩
  · unfold CKP.new; rw [h]

/-- C53: the data it works on is the section of the file as C01 and C07 say. -/
theorem C53_from_file {b : Str} {k : CKP} (h : CKP.new E n b = .ok k) (hs : E.cfg.hasSection flagSection = true) :
    ∃ d o1, edGetItem E n flagSection (Obj.fresh E ()) = (.ok d, o1) ∧ Resolved E py!"configure-flags" d := by
  obtain ⟨d, o1, hr, _⟩ := ckpNew_ok h
  exact ⟨d, o1, hr, read_resolved hs hr⟩

/-- C53: what any operation gets after any history, whatever the outcomes so far, is what it gets on a new object
made with the current build name. -/
theorem C53_history {b : Str} {k : CKP} (h : CKP.new E n b = .ok k) (ops : List CkpOp) (op : CkpOp) :
    ∃ k', CKP.new E n (buildAfter b ops) = .ok k' ∧
      (CkpOp.exec E n op (CkpOp.run E n ops k)).1 = (CkpOp.exec E n op k').1 := by
  obtain ⟨d, o1, hr, hk, hb⟩ := ckpNew_ok h
  obtain ⟨k', hk'⟩ := (C53_constructor (buildAfter b ops)).1 d o1 hr
  obtain ⟨d', o1', hr', hi', hb'⟩ := ckpNew_ok hk'
  rw [hr] at hr'; cases hr'
  refine ⟨k', hk', ?_⟩
  have hag := getItem_again hr n
  have key : ∀ (ops : List CkpOp) (k : CKP) (b : Str), CkpInv d o1 k → k.buildName = b →
      CkpInv d o1 (CkpOp.run E n ops k) ∧ (CkpOp.run E n ops k).buildName = buildAfter b ops := by
    intro ops
    induction ops with
    | nil => intro k b hk hb; exact ⟨hk, hb⟩
    | cons op ops ih =>
      intro k b hk hb
      obtain ⟨k1, h1, h2, h3⟩ := exec_inv hag hk op
      rw [CkpOp.run, h1]
      cases op <;> exact ih k1 _ h2 (by first | exact h3 | exact h3.trans hb)
  obtain ⟨h1, h2⟩ := key ops k b hk hb
  obtain ⟨_, e1, _⟩ := exec_inv hag h1 op
  obtain ⟨_, e2, _⟩ := exec_inv hag hi' op
  rw [e1, e2, h2, hb']

/-- What the operations get on a new object. -/
theorem ckp_answers {b : Str} {k : CKP} (h : CKP.new E n b = .ok k) {o1 : CObj}
    (hr : edGetItem E n flagSection (Obj.fresh E ()) = (.ok d, o1)) :
    (CKP.selectedOptions E n k).1 = selectionRes d b ∧
    (CKP.selectedOptionsStr E n k).1 = andThen (selectionRes d b) (fun l => .ok (l.flatMap fun p => selText p.2)) ∧
    (∀ x, (CKP.isDefaultOption E n x k).1 = andThen (defaultsRes d (Dict.keys d)) fun l => .ok (l.contains x)) ∧
    (CKP.optionsForAllFlags E n k).1 = optionsRes d (Dict.keys d) := by
  obtain ⟨d', o1', hr', hi, hb⟩ := ckpNew_ok h
  rw [hr] at hr'; cases hr'
  have hag := getItem_again hr n
  refine ⟨?_, ?_, fun x => ?_, ?_⟩
  · obtain ⟨_, e, _⟩ := selected_inv hag hi; rw [e, hb]
  · obtain ⟨k1, e, _⟩ := exec_inv hag hi .selectedOptionsStr
    have e' : (CKP.selectedOptionsStr E n >>= fun s => pure (CkpVal.str s)) k = _ := e
    rw [ckpRes, hb] at e'
    cases hx : CKP.selectedOptionsStr E n k with
    | mk r k2 =>
      cases r with
      | ok s =>
        rw [M.bind_ok hx] at e'
        have := congrArg Prod.fst e'
        cases hs : selectionRes d b with
        | ok l => rw [hs] at this; cases this; rfl
        | exc x => rw [hs] at this; cases this
        | diverge => rw [hs] at this; cases this
      | exc x =>
        rw [M.bind_exc hx] at e'
        have := congrArg Prod.fst e'
        cases hs : selectionRes d b with
        | ok l => rw [hs] at this; cases this
        | exc x => rw [hs] at this; cases this; rfl
        | diverge => rw [hs] at this; cases this
      | diverge =>
        rw [M.bind_diverge hx] at e'
        have := congrArg Prod.fst e'
        cases hs : selectionRes d b with
        | ok l => rw [hs] at this; cases this
        | exc x => rw [hs] at this; cases this
        | diverge => rfl
  · obtain ⟨k1, e, _⟩ := exec_inv hag hi (.isDefaultOption x)
    have e' : (CKP.isDefaultOption E n x >>= fun s => pure (CkpVal.bool s)) k = _ := e
    rw [ckpRes] at e'
    cases hx : CKP.isDefaultOption E n x k with
    | mk r k2 =>
      cases r with
      | ok s =>
        rw [M.bind_ok hx] at e'
        have := congrArg Prod.fst e'
        cases hs : defaultsRes d (Dict.keys d) with
        | ok l => rw [hs] at this; cases this; rfl
        | exc x => rw [hs] at this; cases this
        | diverge => rw [hs] at this; cases this
      | exc x =>
        rw [M.bind_exc hx] at e'
        have := congrArg Prod.fst e'
        cases hs : defaultsRes d (Dict.keys d) with
        | ok l => rw [hs] at this; cases this
        | exc x => rw [hs] at this; cases this; rfl
        | diverge => rw [hs] at this; cases this
      | diverge =>
        rw [M.bind_diverge hx] at e'
        have := congrArg Prod.fst e'
        cases hs : defaultsRes d (Dict.keys d) with
        | ok l => rw [hs] at this; cases this
        | exc x => rw [hs] at this; cases this
        | diverge => rfl
  · obtain ⟨_, e, _⟩ := allOptions_inv hag hi; rw [e]

/-- C53: on a section that declares the flags `fl`, `selected_options` has one entry for every flag in the order of
the file: what the words of the build name select. `selected_options_str` is "_option" for all of them. -/
theorem C53_selected {b : Str} {k : CKP} (h : CKP.new E n b = .ok k) {o1 : CObj}
    (hr : edGetItem E n flagSection (Obj.fresh E ()) = (.ok d, o1)) {fl : List Flag} (hd : Declares d fl)
    (hok : ∀ f ∈ fl, f.options ≠ [] ∧ ¬ Conflict f (splitChar '_' b)) :
    ∃ l, (CKP.selectedOptions E n k).1 = .ok l ∧ l.map Prod.fst = fl.map Flag.name ∧
      (∀ f ∈ fl, ∃ s, (f.name, s) ∈ l ∧ Selected f (splitChar '_' b) s) ∧
      (CKP.selectedOptionsStr E n k).1 = .ok (selectionText l) := by
  obtain ⟨h1, h2, _, _⟩ := ckp_answers h hr
  obtain ⟨r, e, hn, _, hs⟩ := selectRes_declared hd (splitChar '_' b) fl (fun _ h => h) hok
  rw [selectionRes_declared hd, e] at h1 h2
  exact ⟨r, h1, hn, hs, h2⟩

/-- C53: there is one selection for every flag. -/
theorem C53_unique {f : Flag} {w : List Str} {s s' : Sel} (h : Selected f w s) (h' : Selected f w s') : s = s' :=
  selected_unique h h'

/-- C53: the first flag that has two options in the build name but allows one, or has no option at all, decides the
failure: ValueError or IndexError. -/
theorem C53_conflict {b : Str} {k : CKP} (h : CKP.new E n b = .ok k) {o1 : CObj}
    (hr : edGetItem E n flagSection (Obj.fresh E ()) = (.ok d, o1)) {pre post : List Flag} {f : Flag}
    (hd : Declares d (pre ++ f :: post)) (hok : ∀ g ∈ pre, g.options ≠ [] ∧ ¬ Conflict g (splitChar '_' b)) :
    (Conflict f (splitChar '_' b) → (CKP.selectedOptions E n k).1 = .exc .valueError ∧
      (CKP.selectedOptionsStr E n k).1 = .exc .valueError) ∧
    (f.options = [] → (CKP.selectedOptions E n k).1 = .exc .indexError ∧
      (CKP.selectedOptionsStr E n k).1 = .exc .indexError) := by
  obtain ⟨h1, h2, _, _⟩ := ckp_answers h hr
  obtain ⟨f1, f2⟩ := selectRes_fails hd (splitChar '_' b) rfl hok
  rw [selectionRes_declared hd] at h1 h2
  refine ⟨fun hc => ?_, fun hc => ?_⟩
  · rw [f1 hc] at h1 h2; exact ⟨h1, h2⟩
  · rw [f2 hc] at h1 h2; exact ⟨h1, h2⟩

/-- The values of a key are acceptable, the first one is a type. -/
def GoodKey (d : Options) (f : Str) : Prop :=
  Acceptable d (valuesIn d f) ∧ ∃ t opts, valuesIn d f = t :: opts ∧ (t = py!"SELECT_ONE" ∨ t = py!"SELECT_MANY")

/-- C53: the first key of the section that is not a good flag decides the failure of every query: SystemExit if its
values break the rules, IndexError if it has no value, ValueError if its first value is not a type. -/
theorem C53_bad_flag {b : Str} {k : CKP} (h : CKP.new E n b = .ok k) {o1 : CObj}
    (hr : edGetItem E n flagSection (Obj.fresh E ()) = (.ok d, o1)) {pre post : List Str} {f : Str}
    (e : Dict.keys d = pre ++ f :: post) (hok : ∀ g ∈ pre, GoodKey d g) {x : PyExc}
    (hx : (¬ Acceptable d (valuesIn d f) ∧ x = .systemExit) ∨ (valuesIn d f = [] ∧ x = .indexError) ∨
      (Acceptable d (valuesIn d f) ∧ (∃ t opts, valuesIn d f = t :: opts ∧ t ≠ py!"SELECT_ONE" ∧ t ≠ py!"SELECT_MANY") ∧
        x = .valueError)) :
    (CKP.selectedOptions E n k).1 = .exc x ∧ (CKP.selectedOptionsStr E n k).1 = .exc x ∧
      (CKP.optionsForAllFlags E n k).1 = .exc x := by
  obtain ⟨h1, h2, _, h4⟩ := ckp_answers h hr
  have hf : f ∈ Dict.keys d := by rw [e]; simp
  have ht : typeRes d f = .exc x := by
    rcases hx with ⟨ha, rfl⟩ | ⟨ha, rfl⟩ | ⟨ha, ⟨t, opts, h0, h1, h2⟩, rfl⟩
    · exact (typeRes_bad hf).1 ha
    · exact (typeRes_bad hf).2.1 ha
    · exact (typeRes_bad hf).2.2 t opts ha h0 h1 h2
  have ho : optionsRes d (Dict.keys d) = .exc x := by
    rw [e]
    refine optionsRes_fails (fun g hg => ?_) ht
    obtain ⟨ha, t, opts, hv, ht⟩ := hok g hg
    exact ⟨_, typeRes_good (by rw [e]; simp [hg]) ha hv ht⟩
  rw [selectionRes, ho] at h1 h2
  rw [ho] at h4
  exact ⟨h1, h2, h4⟩

/-- C53: all keys are good flags, but an option is listed for two flags: SystemExit. -/
theorem C53_shared_option {b : Str} {k : CKP} (h : CKP.new E n b = .ok k) {o1 : CObj}
    (hr : edGetItem E n flagSection (Obj.fresh E ()) = (.ok d, o1)) (hok : ∀ g ∈ Dict.keys d, GoodKey d g)
    (hx : ¬ ((Dict.keys d).flatMap fun f => (valuesIn d f).tail).Nodup) :
    (CKP.selectedOptions E n k).1 = .exc .systemExit ∧ (CKP.selectedOptionsStr E n k).1 = .exc .systemExit := by
  obtain ⟨h1, h2, _, _⟩ := ckp_answers h hr
  have ho : optionsRes d (Dict.keys d) = .ok ((Dict.keys d).flatMap fun f => (valuesIn d f).tail) := by
    refine optionsRes_all fun f hf => ?_
    obtain ⟨ha, t, opts, hv, ht⟩ := hok f hf
    exact ⟨t, by rw [typeRes_good hf ha hv ht, hv]; rfl⟩
  have hs : selectionRes d b = .exc .systemExit := by
    rw [selectionRes, ho]
    show (if hasDuplicates _ = true then _ else _) = _
    rw [if_pos]
    cases hh : hasDuplicates ((Dict.keys d).flatMap fun f => (valuesIn d f).tail) with
    | true => rfl
    | false => exact absurd ((hasDuplicates_iff _).1 hh) hx
  rw [hs] at h1 h2
  exact ⟨h1, h2⟩

/-- C53: `is_default_option(x)` tells whether `x` is the first option of a flag; the list of all options is the
options of all flags in order. -/
theorem C53_default {b : Str} {k : CKP} (h : CKP.new E n b = .ok k) {o1 : CObj}
    (hr : edGetItem E n flagSection (Obj.fresh E ()) = (.ok d, o1)) {fl : List Flag} (hd : Declares d fl) :
    (CKP.optionsForAllFlags E n k).1 = .ok (fl.flatMap Flag.options) ∧
    ((∀ f ∈ fl, f.options ≠ []) → ∀ x, ∃ r, (CKP.isDefaultOption E n x k).1 = .ok r ∧
      (r = true ↔ ∃ f ∈ fl, ∃ rest, f.options = x :: rest)) := by
  obtain ⟨_, _, h3, h4⟩ := ckp_answers h hr
  refine ⟨by rw [h4]; exact optionsRes_declared hd, fun hne x => ?_⟩
  obtain ⟨r, e, hm⟩ := defaultsRes_declared hd fl (fun _ h => h) hne
  refine ⟨r.contains x, ?_, ?_⟩
  · rw [h3, ← hd.names, e]; rfl
  · rw [List.contains_iff_mem]; exact hm x

/-- C53: the text of a selection, after any beginning that mentions no option, selects the same again: choosing
options is idempotent. (No option is itself called SELECT_ONE or SELECT_MANY.) -/
theorem C53_idempotent {b : Str} {k : CKP} (h : CKP.new E n b = .ok k) {o1 : CObj}
    (hr : edGetItem E n flagSection (Obj.fresh E ()) = (.ok d, o1)) {fl : List Flag} (hd : Declares d fl)
    (hw : ∀ o ∈ fl.flatMap Flag.options, o ≠ py!"SELECT_ONE" ∧ o ≠ py!"SELECT_MANY")
    {l : List (Str × Sel)} (hl : (CKP.selectedOptions E n k).1 = .ok l)
    {x : Str} (hx : ∀ o ∈ fl.flatMap Flag.options, o ∉ splitChar '_' x) {k' : CKP}
    (h' : CKP.new E n (x ++ selectionText l) = .ok k') :
    (CKP.selectedOptions E n k').1 = .ok l ∧ (CKP.selectedOptionsStr E n k').1 = .ok (selectionText l) := by
  obtain ⟨h1, _⟩ := ckp_answers h hr
  rw [hl, selectionRes_declared hd] at h1
  -- no flag failed
  have hok : ∀ f ∈ fl, f.options ≠ [] ∧ ¬ Conflict f (splitChar '_' b) := by
    have : ∀ (pre post : List Flag), fl = pre ++ post → ∀ f ∈ pre, f.options ≠ [] ∧ ¬ Conflict f (splitChar '_' b) := by
      intro pre
      induction hn : pre.length generalizing pre with
      | zero => intro post _ f hf; cases pre with | nil => cases hf | cons => simp at hn
      | succ m ih =>
        intro post e f hf
        obtain ⟨init, g, rfl⟩ : ∃ init g, pre = init ++ [g] := by
          rcases List.eq_nil_or_concat pre with rfl | ⟨init, g, rfl⟩
          · simp at hn
          · exact ⟨init, g, by simp⟩
        have hi := ih init (by simpa using hn) (g :: post) (by rw [e]; simp)
        rcases List.mem_append.1 hf with hf | hf
        · exact hi f hf
        · cases List.mem_singleton.1 hf
          have hfail := selectRes_fails hd (splitChar '_' b) (pre := init) (post := post) (f := f) (by rw [e]; simp) hi
          refine ⟨fun h0 => ?_, fun h0 => ?_⟩
          · rw [hfail.2 h0] at h1; cases h1
          · rw [hfail.1 h0] at h1; cases h1
    exact this fl [] (by simp)
  obtain ⟨r, e, hn, hin, hsel⟩ := selectRes_declared hd (splitChar '_' b) fl (fun _ h => h) hok
  rw [e] at h1; cases h1
  -- the words of the new build name
  have hnames : (fl.map Flag.name).Nodup := by
    refine nodup_names hd.distinct (fun f hf => (hok f hf).1) fun f g hf hg e => ?_
    have h1 := hd.values f hf
    rw [e, hd.values g hg] at h1
    exact (List.cons.inj h1).2.symm
  have hplain : ∀ o ∈ fl.flatMap Flag.options, '_' ∉ o := by
    intro o ho hu
    obtain ⟨f, hf, hof⟩ := List.mem_flatMap.1 ho
    have hk : f.name ∈ Dict.keys d := by rw [← hd.names]; exact List.mem_map.2 ⟨f, hf, rfl⟩
    have := (hd.rules f.name hk).plain o (by rw [hd.values f hf]; exact .tail _ hof) (.inr hu)
    rcases this with rfl | rfl
    · exact (hw _ ho).1 rfl
    · exact (hw _ ho).2 rfl
  have hopt : ∀ p ∈ l, ∀ o ∈ selOptions p.2, o ∈ fl.flatMap Flag.options := by
    intro p hp o ho
    obtain ⟨f, hf, _, hs⟩ := hin p hp
    exact List.mem_flatMap.2 ⟨f, hf, selOptions_mem hs o ho⟩
  have htok : splitChar '_' (x ++ selectionText l) = splitChar '_' x ++ l.flatMap fun p => selOptions p.2 :=
    split_selText x l fun p hp o ho => hplain o (hopt p hp o ho)
  have hagain : ∀ f ∈ fl, ∃ s, (f.name, s) ∈ l ∧ Selected f (splitChar '_' (x ++ selectionText l)) s := by
    intro f hf
    obtain ⟨s, hs, hsel⟩ := hsel f hf
    refine ⟨s, hs, selected_again hsel fun o ho => ?_⟩
    rw [htok, List.mem_append]
    constructor
    · rintro (ho' | ho')
      · exact absurd ho' (hx o (List.mem_flatMap.2 ⟨f, hf, ho⟩))
      · obtain ⟨p, hp, hop⟩ := List.mem_flatMap.1 ho'
        obtain ⟨g, hg, hgn, hgs⟩ := hin p hp
        have hfg := flag_of_option hd.distinct hf hg ho (selOptions_mem hgs o hop)
        subst hfg
        rw [selected_unique hsel hgs]; exact hop
    · exact fun ho' => .inr (List.mem_flatMap.2 ⟨_, hs, ho'⟩)
  have hok' : ∀ f ∈ fl, f.options ≠ [] ∧ ¬ Conflict f (splitChar '_' (x ++ selectionText l)) := fun f hf => by
    obtain ⟨s, _, hs⟩ := hagain f hf
    exact not_conflict_of_selected (hd.types f hf) hs
  obtain ⟨l', e1, e2, e3, e4⟩ := C53_selected h' hr hd hok'
  have := selection_unique hnames hn e2 hagain e3
  subst this
  exact ⟨e1, e4⟩

/-! An example. -/

/--
```
[configure-flags]
use-mpi:   SELECT_ONE
    mpi      # the default
    no-mpi
packages:  SELECT_MANY
    none
    teko
    belos
```
-/
def flagsCfg : Cfg where
  sections := [(py!"configure-flags",
    [(py!"use-mpi", some py!"SELECT_ONE\nmpi      # the default\nno-mpi"), (py!"packages", some py!"SELECT_MANY\nnone\nteko\nbelos")])]

/-- The flags of the example. -/
def flags0 : List Flag :=
  [⟨py!"use-mpi", py!"SELECT_ONE", [py!"mpi", py!"no-mpi"]⟩, ⟨py!"packages", py!"SELECT_MANY", [py!"none", py!"teko", py!"belos"]⟩]

/-- The selection for a build name. -/
def selectionFor (build : Str) : Out (List (Str × Sel)) :=
  match CKP.new (cls flagsCfg) 10 build with
  | .ok k => (CKP.selectedOptions (cls flagsCfg) 10 k).1
  | .exc e => .exc e
  | .diverge => .diverge

example : selectionFor py!"env_teko_no-mpi_belos" = .ok [(py!"use-mpi", .one py!"no-mpi"), (py!"packages", .many [py!"belos", py!"teko"])] ∧
    selectionFor py!"env" = .ok [(py!"use-mpi", .one py!"mpi"), (py!"packages", .one py!"none")] ∧
    selectionFor py!"mpi_no-mpi" = .exc .valueError := by decide +kernel

/-- The hypotheses of C53 hold: the section declares the two flags. -/
example : ∃ d o1, edGetItem (cls flagsCfg) 10 flagSection (Obj.fresh (cls flagsCfg) ()) = (.ok d, o1) ∧ Declares d flags0 := by
  refine ⟨_, _, rfl, ⟨rfl, ?_, ?_, ?_, ?_⟩⟩
  · decide +kernel
  · decide +kernel
  · intro k hk
    have hk' : k = py!"use-mpi" ∨ k = py!"packages" := by simpa using (show k ∈ [py!"use-mpi", py!"packages"] from hk)
    rcases hk' with rfl | rfl <;> exact ⟨by decide +kernel, by decide +kernel, by decide +kernel⟩
  · decide +kernel

example : Conflict ⟨py!"use-mpi", py!"SELECT_ONE", [py!"mpi", py!"no-mpi"]⟩ (splitChar '_' py!"mpi_no-mpi") :=
  ⟨rfl, py!"mpi", py!"no-mpi", by decide +kernel, by decide +kernel, by decide +kernel, by decide +kernel, by decide +kernel⟩

example : CPE.KW.Spec.selectionText [(py!"use-mpi", .one py!"no-mpi"), (py!"packages", .many [py!"belos", py!"teko"])] = py!"_no-mpi_belos_teko" := by
  decide +kernel

end
end CPE.Props
