import Verif.Proofs.KeywordParsers
/-
Lemmas on ConfigKeywordParser.
-/
namespace CPE.KW
open CPE CPE.Spec CPE.SetEnv CPE.KW.Spec

/-- Run an operation of a client. -/
def CkpOp.exec (E : Env Unit Unit) (n : Nat) : CkpOp → M CKP CkpVal
  | .setBuildName b => do CKP.setBuildName b; pure .unit
  | .selectedOptions => do let l ← CKP.selectedOptions E n; pure (.sel l)
  | .selectedOptionsStr => do let s ← CKP.selectedOptionsStr E n; pure (.str s)
  | .isDefaultOption x => do let b ← CKP.isDefaultOption E n x; pure (.bool b)
  | .allOptions => do let l ← CKP.optionsForAllFlags E n; pure (.strs l)

/-- Run a history, whatever the outcomes. -/
def CkpOp.run (E : Env Unit Unit) (n : Nat) : List CkpOp → CKP → CKP
  | [], k => k
  | op :: ops, k => CkpOp.run E n ops (CkpOp.exec E n op k).2

/-- Sequencing of outcomes. -/
def andThen {α β : Type} : Out α → (α → Out β) → Out β
  | .ok a, f => f a
  | .exc e, _ => .exc e
  | .diverge, _ => .diverge

theorem andThen_bind {W α β : Type} {m : M W α} {f : α → M W β} {w : W} {r : Out α} (h : m w = (r, w)) {g : α → Out β}
    (hf : ∀ a, f a w = (g a, w)) : (m >>= f) w = (andThen r g, w) := by
  cases r with
  | ok a => rw [M.bind_ok h, hf]; rfl
  | exc e => rw [M.bind_exc h]; rfl
  | diverge => rw [M.bind_diverge h]; rfl

/-- get_options_and_flag_type_for_flag on the data of the section. -/
def typeRes (d : Options) (f : Str) : Out (List Str × Str) :=
  andThen (valuesResult d f) fun
    | [] => .exc .indexError
    | t :: opts => if t ∉ selectWords then .exc .valueError else .ok (opts, t)

def optionsRes (d : Options) : List Str → Out (List Str)
  | [] => .ok []
  | f :: fs => andThen (typeRes d f) fun p => andThen (optionsRes d fs) fun r => .ok (p.1 ++ r)

def selectRes (d : Options) (tokens : List Str) : List Str → Out (List (Str × Sel))
  | [] => .ok []
  | f :: fs => andThen (typeRes d f) fun p => andThen (selectFor p.1 p.2 tokens) fun s =>
      andThen (selectRes d tokens fs) fun r => .ok ((f, s) :: r)

def defaultsRes (d : Options) : List Str → Out (List Str)
  | [] => .ok []
  | f :: fs => andThen (typeRes d f) fun p => match p.1 with
    | [] => .exc .indexError
    | o :: _ => andThen (defaultsRes d fs) fun r => .ok (o :: r)

section
variable {E : Env Unit Unit} {n : Nat} {o1 : CObj} {d : Options}

theorem optionsAndType_read (h : edGetItem E n flagSection o1 = (.ok d, o1)) (f : Str) :
    optionsAndType E n f o1 = (typeRes d f, o1) := by
  unfold optionsAndType typeRes
  refine andThen_bind (getValues_read h f) fun vals => ?_
  cases vals with
  | nil => rfl
  | cons t opts => dsimp only; split <;> rfl

theorem optionsLoop_read (h : edGetItem E n flagSection o1 = (.ok d, o1)) (fs : List Str) :
    optionsLoop E n fs o1 = (optionsRes d fs, o1) := by
  induction fs with
  | nil => rfl
  | cons f fs ih =>
    unfold optionsLoop optionsRes
    exact andThen_bind (optionsAndType_read h f) fun p => andThen_bind ih fun r => rfl

theorem selectLoop_read (h : edGetItem E n flagSection o1 = (.ok d, o1)) (tokens fs : List Str) :
    selectLoop E n tokens fs o1 = (selectRes d tokens fs, o1) := by
  induction fs with
  | nil => rfl
  | cons f fs ih =>
    unfold selectLoop selectRes
    refine andThen_bind (optionsAndType_read h f) fun p => ?_
    obtain ⟨opts, t⟩ := p
    dsimp only
    cases selectFor opts t tokens with
    | ok s => exact andThen_bind ih fun r => rfl
    | exc e => rfl
    | diverge => rfl

theorem defaultsLoop_read (h : edGetItem E n flagSection o1 = (.ok d, o1)) (fs : List Str) :
    defaultsLoop E n fs o1 = (defaultsRes d fs, o1) := by
  induction fs with
  | nil => rfl
  | cons f fs ih =>
    unfold defaultsLoop defaultsRes
    refine andThen_bind (optionsAndType_read h f) fun p => ?_
    obtain ⟨opts, t⟩ := p
    dsimp only
    cases opts with
    | nil => rfl
    | cons o opts => exact andThen_bind ih fun r => rfl

/-- selected_options on the data of the section. -/
def selectionRes (d : Options) (build : Str) : Out (List (Str × Sel)) :=
  andThen (optionsRes d (Dict.keys d)) fun l =>
    if hasDuplicates l = true then .exc .systemExit else selectRes d (splitChar '_' build) (Dict.keys d)

/-- What an operation gets, from the data of the section and the current build name. -/
def ckpRes (d : Options) (build : Str) : CkpOp → Out CkpVal
  | .setBuildName _ => .ok .unit
  | .selectedOptions => andThen (selectionRes d build) fun l => .ok (.sel l)
  | .selectedOptionsStr => andThen (selectionRes d build) fun l => .ok (.str (l.flatMap fun p => selText p.2))
  | .isDefaultOption x => andThen (defaultsRes d (Dict.keys d)) fun l => .ok (.bool (l.contains x))
  | .allOptions => andThen (optionsRes d (Dict.keys d)) fun l => .ok (.strs l)

/-- Everything the object remembers is right for its current build name. -/
structure CkpInv (d : Options) (o1 : CObj) (k : CKP) : Prop where
  obj : k.obj = o1
  flags : k.flagNames = Dict.keys d
  selected : ∀ l, k.selected = some l → selectionRes d k.buildName = .ok l
  selectedStr : ∀ s, k.selectedStr = some s → ∃ l, selectionRes d k.buildName = .ok l ∧ s = l.flatMap fun p => selText p.2
  defaults : ∀ l, k.defaults = some l → defaultsRes d (Dict.keys d) = .ok l
  options : ∀ l, k.optionsList = some l → optionsRes d (Dict.keys d) = .ok l

theorem onObj_read {α : Type} {m : M CObj α} {r : Out α} {k : CKP} (h : m k.obj = (r, k.obj)) : CKP.onObj m k = (r, k) := by
  unfold CKP.onObj
  rw [h]

theorem allOptions_inv (h : edGetItem E n flagSection o1 = (.ok d, o1)) {k : CKP} (hk : CkpInv d o1 k) :
    ∃ k', CKP.optionsForAllFlags E n k = (optionsRes d (Dict.keys d), k') ∧ CkpInv d o1 k' ∧ k'.buildName = k.buildName := by
  unfold CKP.optionsForAllFlags
  rw [M.read_bind]
  cases ho : k.optionsList with
  | some l => exact ⟨k, by rw [hk.options l ho]; rfl, hk, rfl⟩
  | none =>
    have hl : CKP.onObj (optionsLoop E n k.flagNames) k = (optionsRes d (Dict.keys d), k) := by
      rw [hk.flags]; exact onObj_read (by rw [hk.obj]; exact optionsLoop_read h _)
    dsimp only
    cases hr : optionsRes d (Dict.keys d) with
    | ok l =>
      rw [hr] at hl
      rw [M.bind_ok hl]
      refine ⟨{ k with optionsList := some l }, rfl, ⟨hk.obj, hk.flags, hk.selected, hk.selectedStr, hk.defaults, ?_⟩, rfl⟩
      intro l' h'; cases h'; exact hr
    | exc e => rw [hr] at hl; rw [M.bind_exc hl]; exact ⟨k, rfl, hk, rfl⟩
    | diverge => rw [hr] at hl; rw [M.bind_diverge hl]; exact ⟨k, rfl, hk, rfl⟩

theorem selected_inv (h : edGetItem E n flagSection o1 = (.ok d, o1)) {k : CKP} (hk : CkpInv d o1 k) :
    ∃ k', CKP.selectedOptions E n k = (selectionRes d k.buildName, k') ∧ CkpInv d o1 k' ∧ k'.buildName = k.buildName := by
  unfold CKP.selectedOptions
  rw [M.read_bind]
  cases ho : k.selected with
  | some l => exact ⟨k, by rw [hk.selected l ho]; rfl, hk, rfl⟩
  | none =>
    dsimp only
    obtain ⟨k1, h1, hk1, hb1⟩ := allOptions_inv h hk
    unfold CKP.assertUnique
    rw [M.bind_assoc]
    cases hr : optionsRes d (Dict.keys d) with
    | exc e =>
      rw [hr] at h1
      rw [M.bind_exc h1]
      exact ⟨k1, by rw [selectionRes, hr]; rfl, hk1, hb1⟩
    | diverge =>
      rw [hr] at h1
      rw [M.bind_diverge h1]
      exact ⟨k1, by rw [selectionRes, hr]; rfl, hk1, hb1⟩
    | ok l =>
      rw [hr] at h1
      rw [M.bind_ok h1]
      have e : selectionRes d k.buildName = if hasDuplicates l = true then .exc .systemExit
          else selectRes d (splitChar '_' k.buildName) (Dict.keys d) := by rw [selectionRes, hr]; rfl
      by_cases hd : hasDuplicates l = true
      · rw [if_pos hd] at e
        rw [if_pos hd, e]
        exact ⟨k1, rfl, hk1, hb1⟩
      · rw [if_neg hd] at e
        rw [if_neg hd, e]
        have hl : CKP.onObj (selectLoop E n (splitChar '_' k.buildName) k.flagNames) k1 =
            (selectRes d (splitChar '_' k.buildName) (Dict.keys d), k1) := by
          rw [hk.flags]; exact onObj_read (by rw [hk1.obj]; exact selectLoop_read h _ _)
        show ∃ k', (CKP.onObj (selectLoop E n (splitChar '_' k.buildName) k.flagNames) >>= fun l => do
          M.modify fun k => { k with selected := some l }
          pure l) k1 = _ ∧ _
        cases hs : selectRes d (splitChar '_' k.buildName) (Dict.keys d) with
        | exc x => rw [hs] at hl; rw [M.bind_exc hl]; exact ⟨k1, rfl, hk1, hb1⟩
        | diverge => rw [hs] at hl; rw [M.bind_diverge hl]; exact ⟨k1, rfl, hk1, hb1⟩
        | ok sel =>
          rw [hs] at hl e
          rw [M.bind_ok hl]
          refine ⟨{ k1 with selected := some sel }, rfl, ⟨hk1.obj, hk1.flags, ?_, hk1.selectedStr, hk1.defaults, hk1.options⟩, hb1⟩
          intro l' h'; cases h'
          show selectionRes d k1.buildName = _
          rw [hb1, e]

theorem exec_inv (h : edGetItem E n flagSection o1 = (.ok d, o1)) {k : CKP} (hk : CkpInv d o1 k) (op : CkpOp) :
    ∃ k', CkpOp.exec E n op k = (ckpRes d k.buildName op, k') ∧ CkpInv d o1 k' ∧
      k'.buildName = (match op with | .setBuildName b => b | _ => k.buildName) := by
  cases op with
  | setBuildName b =>
    exact ⟨_, rfl, ⟨hk.obj, hk.flags, (fun l h => by cases h), (fun s h => by cases h), hk.defaults, hk.options⟩, rfl⟩
  | selectedOptions =>
    obtain ⟨k1, h1, h2, h3⟩ := selected_inv h hk
    refine ⟨k1, ?_, h2, h3⟩
    show (CKP.selectedOptions E n >>= fun l => pure (CkpVal.sel l)) k = _
    rw [ckpRes]
    cases hr : selectionRes d k.buildName with
    | ok l => rw [hr] at h1; rw [M.bind_ok h1]; rfl
    | exc e => rw [hr] at h1; rw [M.bind_exc h1]; rfl
    | diverge => rw [hr] at h1; rw [M.bind_diverge h1]; rfl
  | selectedOptionsStr =>
    show ∃ k', (CKP.selectedOptionsStr E n >>= fun s => pure (CkpVal.str s)) k = _ ∧ _
    unfold CKP.selectedOptionsStr
    rw [M.bind_assoc, M.read_bind]
    cases ho : k.selectedStr with
    | some s =>
      obtain ⟨l, h1, rfl⟩ := hk.selectedStr s ho
      exact ⟨k, by rw [ckpRes, h1]; rfl, hk, rfl⟩
    | none =>
      dsimp only
      rw [M.bind_assoc]
      obtain ⟨k1, h1, h2, h3⟩ := selected_inv h hk
      rw [ckpRes]
      cases hr : selectionRes d k.buildName with
      | ok l =>
        rw [hr] at h1; rw [M.bind_ok h1]
        refine ⟨{ k1 with selectedStr := some (l.flatMap fun p => selText p.2) }, rfl,
          ⟨h2.obj, h2.flags, h2.selected, ?_, h2.defaults, h2.options⟩, h3⟩
        intro s' h'; cases h'
        exact ⟨l, by rw [← hr]; exact congrArg _ h3, rfl⟩
      | exc e => rw [hr] at h1; rw [M.bind_exc h1]; exact ⟨k1, rfl, h2, h3⟩
      | diverge => rw [hr] at h1; rw [M.bind_diverge h1]; exact ⟨k1, rfl, h2, h3⟩
  | isDefaultOption x =>
    show ∃ k', (CKP.isDefaultOption E n x >>= fun b => pure (CkpVal.bool b)) k = _ ∧ _
    unfold CKP.isDefaultOption
    rw [M.bind_assoc, M.read_bind]
    cases ho : k.defaults with
    | some l => exact ⟨k, by rw [ckpRes, hk.defaults l ho]; rfl, hk, rfl⟩
    | none =>
      dsimp only
      rw [M.bind_assoc]
      have hl : CKP.onObj (defaultsLoop E n k.flagNames) k = (defaultsRes d (Dict.keys d), k) := by
        rw [hk.flags]; exact onObj_read (by rw [hk.obj]; exact defaultsLoop_read h _)
      rw [ckpRes]
      cases hr : defaultsRes d (Dict.keys d) with
      | ok l =>
        rw [hr] at hl; rw [M.bind_ok hl]
        refine ⟨{ k with defaults := some l }, rfl, ⟨hk.obj, hk.flags, hk.selected, hk.selectedStr, ?_, hk.options⟩, rfl⟩
        intro l' h'; cases h'; exact hr
      | exc e => rw [hr] at hl; rw [M.bind_exc hl]; exact ⟨k, rfl, hk, rfl⟩
      | diverge => rw [hr] at hl; rw [M.bind_diverge hl]; exact ⟨k, rfl, hk, rfl⟩
  | allOptions =>
    obtain ⟨k1, h1, h2, h3⟩ := allOptions_inv h hk
    refine ⟨k1, ?_, h2, h3⟩
    show (CKP.optionsForAllFlags E n >>= fun l => pure (CkpVal.strs l)) k = _
    rw [ckpRes]
    cases hr : optionsRes d (Dict.keys d) with
    | ok l => rw [hr] at h1; rw [M.bind_ok h1]; rfl
    | exc e => rw [hr] at h1; rw [M.bind_exc h1]; rfl
    | diverge => rw [hr] at h1; rw [M.bind_diverge h1]; rfl

theorem run_inv (h : edGetItem E n flagSection o1 = (.ok d, o1)) (ops : List CkpOp) {k : CKP} (hk : CkpInv d o1 k) :
    CkpInv d o1 (CkpOp.run E n ops k) := by
  induction ops generalizing k with
  | nil => exact hk
  | cons op ops ih =>
    obtain ⟨k', h1, h2, _⟩ := exec_inv h hk op
    rw [CkpOp.run, h1]; exact ih h2

theorem ckpNew_ok {build : Str} {k : CKP} (h : CKP.new E n build = .ok k) :
    ∃ d o1, edGetItem E n flagSection (Obj.fresh E ()) = (.ok d, o1) ∧ CkpInv d o1 k ∧ k.buildName = build := by
  unfold CKP.new at h
  split at h
  · rename_i d o1 hr
    cases h
    exact ⟨d, o1, hr, ⟨rfl, rfl, (fun l h => by cases h), (fun l h => by cases h), (fun l h => by cases h), (fun l h => by cases h)⟩, rfl⟩
  · cases h
  · cases h

/-! ### Sorting -/

theorem before_of_strLe {a b : Str} (h : strLe a b = true) : Before a b := by
  induction a generalizing b with
  | nil => exact .nil
  | cons x a ih =>
    cases b with
    | nil => cases h
    | cons y b =>
      rw [strLe] at h
      split at h
      · rename_i e; subst e; exact .eq (ih h)
      · exact .lt (by simpa using h)

theorem strLe_total {a b : Str} (h : ¬ strLe a b = true) : strLe b a = true := by
  induction a generalizing b with
  | nil => exact absurd rfl h
  | cons x a ih =>
    cases b with
    | nil => rfl
    | cons y b =>
      rw [strLe] at h ⊢
      split at h
      · rename_i e; subst e; rw [if_pos rfl]; exact ih h
      · rename_i hne
        rw [if_neg (Ne.symm hne)]
        have : x.toNat ≠ y.toNat := fun he => hne (Char.toNat_inj.1 he)
        simp at h ⊢; omega

theorem strLe_trans {a b c : Str} (h1 : strLe a b = true) (h2 : strLe b c = true) : strLe a c = true := by
  induction a generalizing b c with
  | nil => rfl
  | cons x a ih =>
    cases b with
    | nil => cases h1
    | cons y b =>
      cases c with
      | nil => cases h2
      | cons z c =>
        rw [strLe] at h1 h2 ⊢
        by_cases e1 : x = y
        · subst e1
          rw [if_pos rfl] at h1
          by_cases e2 : x = z
          · subst e2; rw [if_pos rfl] at h2 ⊢; exact ih h1 h2
          · rw [if_neg e2] at h2 ⊢; exact h2
        · rw [if_neg e1] at h1
          by_cases e2 : y = z
          · subst e2; rw [if_neg e1]; exact h1
          · rw [if_neg e2] at h2
            simp at h1 h2
            have : x ≠ z := fun e => by subst e; omega
            rw [if_neg this]; simp; omega

theorem mem_insertSorted {x y : Str} {l : List Str} : y ∈ insertSorted x l ↔ y = x ∨ y ∈ l := by
  induction l with
  | nil => simp [insertSorted]
  | cons a l ih =>
    rw [insertSorted]
    split
    · simp
    · simp only [List.mem_cons, ih]
      exact ⟨fun h => by rcases h with h | h | h <;> simp [h], fun h => by rcases h with h | h | h <;> simp [h]⟩

theorem mem_sortStrs {y : Str} {l : List Str} : y ∈ sortStrs l ↔ y ∈ l := by
  induction l with
  | nil => simp [sortStrs]
  | cons a l ih => rw [sortStrs, mem_insertSorted, ih, List.mem_cons]

theorem length_insertSorted (x : Str) (l : List Str) : (insertSorted x l).length = l.length + 1 := by
  induction l with
  | nil => rfl
  | cons a l ih => rw [insertSorted]; split <;> simp [ih]

theorem length_sortStrs (l : List Str) : (sortStrs l).length = l.length := by
  induction l with
  | nil => rfl
  | cons a l ih => rw [sortStrs, length_insertSorted, ih, List.length_cons]

theorem nodup_insertSorted {x : Str} {l : List Str} (hx : x ∉ l) (h : l.Nodup) : (insertSorted x l).Nodup := by
  induction l with
  | nil => simp [insertSorted]
  | cons a l ih =>
    rw [insertSorted]
    split
    · exact List.nodup_cons.2 ⟨hx, h⟩
    · rw [List.nodup_cons] at h ⊢
      simp only [List.mem_cons, not_or] at hx
      refine ⟨fun hm => ?_, ih hx.2 h.2⟩
      rcases mem_insertSorted.1 hm with rfl | hm
      · exact hx.1 rfl
      · exact h.1 hm

theorem nodup_sortStrs {l : List Str} (h : l.Nodup) : (sortStrs l).Nodup := by
  induction l with
  | nil => exact h
  | cons a l ih =>
    rw [List.nodup_cons] at h
    exact nodup_insertSorted (fun hm => h.1 (mem_sortStrs.1 hm)) (ih h.2)

theorem sorted_insert {x : Str} {l : List Str} (h : l.Pairwise fun a b => strLe a b = true) :
    (insertSorted x l).Pairwise fun a b => strLe a b = true := by
  induction l with
  | nil => simp [insertSorted]
  | cons a l ih =>
    rw [List.pairwise_cons] at h
    rw [insertSorted]
    split
    · rename_i hx
      refine List.pairwise_cons.2 ⟨fun y hy => ?_, List.pairwise_cons.2 h⟩
      rcases List.mem_cons.1 hy with rfl | hy
      · exact hx
      · exact strLe_trans hx (h.1 y hy)
    · rename_i hx
      refine List.pairwise_cons.2 ⟨fun y hy => ?_, ih h.2⟩
      rcases mem_insertSorted.1 hy with rfl | hy
      · exact strLe_total hx
      · exact h.1 y hy

theorem sorted_sortStrs (l : List Str) : (sortStrs l).Pairwise Before := by
  have : (sortStrs l).Pairwise fun a b => strLe a b = true := by
    induction l with
    | nil => exact .nil
    | cons a l ih => exact sorted_insert ih
  exact this.imp before_of_strLe

/-! ### Selection -/

theorem typeRes_declared {fl : List Flag} (hd : Declares d fl) {f : Flag} (hf : f ∈ fl) : typeRes d f.name = .ok (f.options, f.type) := by
  have hk : f.name ∈ Dict.keys d := by rw [← hd.names]; exact List.mem_map.2 ⟨f, hf, rfl⟩
  rw [typeRes, valuesResult_ok hk (hd.rules _ hk), hd.values f hf]
  show (if f.type ∉ selectWords then _ else _) = _
  rw [if_neg]
  have := hd.types f hf
  simp only [Decidable.not_not, selectWords, List.mem_cons, List.not_mem_nil, or_false]
  exact this

theorem optionsRes_declared {fl : List Flag} (hd : Declares d fl) : optionsRes d (Dict.keys d) = .ok (fl.flatMap Flag.options) := by
  rw [← hd.names]
  have : ∀ l : List Flag, (∀ f ∈ l, f ∈ fl) → optionsRes d (l.map Flag.name) = .ok (l.flatMap Flag.options) := by
    intro l
    induction l with
    | nil => intro _; rfl
    | cons f l ih =>
      intro h
      rw [List.map_cons, optionsRes, typeRes_declared hd (h f (.head _)), ih fun g hg => h g (.tail _ hg)]
      rfl
  exact this fl fun _ h => h

theorem nodup_options {fl : List Flag} (h : (fl.flatMap Flag.options).Nodup) {f : Flag} (hf : f ∈ fl) : f.options.Nodup := by
  induction fl with
  | nil => cases hf
  | cons g fl ih =>
    rw [List.flatMap_cons, List.nodup_append] at h
    rcases List.mem_cons.1 hf with rfl | hf
    · exact h.1
    · exact ih h.2.1 hf

theorem nodup_filter {p : Str → Bool} {l : List Str} (h : l.Nodup) : (l.filter p).Nodup := List.Pairwise.filter p h

/-- Selection for one flag. -/
theorem selectFor_cases {f : Flag} {tokens : List Str} (ht : f.type = py!"SELECT_ONE" ∨ f.type = py!"SELECT_MANY")
    (hs : f.options ≠ []) (hn : f.options.Nodup) :
    (Conflict f tokens ∧ selectFor f.options f.type tokens = .exc .valueError) ∨
    (¬ Conflict f tokens ∧ ∃ s, selectFor f.options f.type tokens = .ok s ∧ Selected f tokens s) := by
  have hmem : ∀ x, x ∈ (f.options.filter fun o => tokens.contains o) ↔ x ∈ f.options ∧ x ∈ tokens := by
    intro x; rw [List.mem_filter]; simp
  have hnf := nodup_filter (p := fun o => tokens.contains o) hn
  unfold selectFor
  dsimp only
  generalize hF : (f.options.filter fun o => tokens.contains o) = F at hmem hnf
  by_cases h1 : f.type = py!"SELECT_ONE" ∧ F.length > 1
  · rw [if_pos h1]
    refine .inl ⟨⟨h1.1, ?_⟩, rfl⟩
    cases F with
    | nil => simp at h1
    | cons x F =>
      cases F with
      | nil => simp at h1
      | cons y F =>
        have hx := (hmem x).1 (by simp)
        have hy := (hmem y).1 (by simp)
        refine ⟨x, y, hx.1, hy.1, ?_, hx.2, hy.2⟩
        rw [List.nodup_cons] at hnf
        exact fun e => hnf.1 (by simp [e])
  · rw [if_neg h1]
    have hnc : ¬ Conflict f tokens := by
      rintro ⟨h2, x, y, hx, hy, hxy, hx', hy'⟩
      refine h1 ⟨h2, ?_⟩
      have m1 := (hmem x).2 ⟨hx, hx'⟩
      have m2 := (hmem y).2 ⟨hy, hy'⟩
      cases F with
      | nil => cases m1
      | cons a F =>
        cases F with
        | nil => simp at m1 m2; exact absurd (m1.trans m2.symm) hxy
        | cons b F => simp
    refine .inr ⟨hnc, ?_⟩
    by_cases h2 : f.type = py!"SELECT_MANY" ∧ F.length > 1
    · rw [if_pos h2]
      refine ⟨_, rfl, .many h2.1 ?_ (nodup_sortStrs hnf) (fun x => mem_sortStrs.trans (hmem x)) (sorted_sortStrs F)⟩
      rw [length_sortStrs]; exact h2.2
    · rw [if_neg h2]
      have hlen : F.length ≤ 1 := by
        rcases ht with ht | ht
        · exact Nat.le_of_not_lt fun h => h1 ⟨ht, h⟩
        · exact Nat.le_of_not_lt fun h => h2 ⟨ht, h⟩
      cases F with
      | nil =>
        cases ho : f.options with
        | nil => exact absurd ho hs
        | cons o rest =>
          refine ⟨_, rfl, .default ho fun x hx hx' => ?_⟩
          have := (hmem x).2 ⟨hx, hx'⟩
          cases this
      | cons o F =>
        have : F = [] := by cases F with | nil => rfl | cons => simp at hlen
        subst this
        have ho := (hmem o).1 (by simp)
        exact ⟨_, rfl, .one ho.1 ho.2 fun x hx hx' => by simpa using (hmem x).2 ⟨hx, hx'⟩⟩

theorem selectFor_empty {t : Str} {tokens : List Str} : selectFor [] t tokens = .exc .indexError := by
  unfold selectFor
  simp

/-- Selection for the flags of the section: the first flag that fails decides. -/
theorem selectRes_declared {fl : List Flag} (hd : Declares d fl) (tokens : List Str) (l : List Flag) (hl : ∀ f ∈ l, f ∈ fl)
    (hok : ∀ f ∈ l, f.options ≠ [] ∧ ¬ Conflict f tokens) :
    ∃ r, selectRes d tokens (l.map Flag.name) = .ok r ∧ r.map Prod.fst = l.map Flag.name ∧
      (∀ p ∈ r, ∃ f ∈ l, f.name = p.1 ∧ Selected f tokens p.2) ∧ (∀ f ∈ l, ∃ s, (f.name, s) ∈ r ∧ Selected f tokens s) := by
  induction l with
  | nil => exact ⟨[], rfl, rfl, (fun p h => by cases h), (fun p h => by cases h)⟩
  | cons f l ih =>
    obtain ⟨r, h1, h2, h3, h4⟩ := ih (fun g hg => hl g (.tail _ hg)) (fun g hg => hok g (.tail _ hg))
    have hf := hok f (.head _)
    have hm := hl f (.head _)
    rcases selectFor_cases (tokens := tokens) (hd.types f hm) hf.1 (nodup_options hd.distinct hm) with hx | ⟨_, s, hs, hsel⟩
    · exact absurd hx.1 hf.2
    · refine ⟨(f.name, s) :: r, ?_, ?_, ?_, ?_⟩
      · rw [List.map_cons, selectRes, typeRes_declared hd hm]
        show andThen (selectFor f.options f.type tokens) _ = _
        rw [hs]
        show andThen (selectRes d tokens (l.map Flag.name)) _ = _
        rw [h1]; rfl
      · rw [List.map_cons, List.map_cons, h2]
      · intro p hp
        rcases List.mem_cons.1 hp with rfl | hp
        · exact ⟨f, .head _, rfl, hsel⟩
        · obtain ⟨g, hg, h⟩ := h3 p hp; exact ⟨g, .tail _ hg, h⟩
      · intro g hg
        rcases List.mem_cons.1 hg with rfl | hg
        · exact ⟨s, .head _, hsel⟩
        · obtain ⟨s', h, h'⟩ := h4 g hg; exact ⟨s', .tail _ h, h'⟩

theorem selectRes_fails {fl : List Flag} (hd : Declares d fl) (tokens : List Str) {pre post : List Flag} {f : Flag}
    (e : fl = pre ++ f :: post) (hok : ∀ g ∈ pre, g.options ≠ [] ∧ ¬ Conflict g tokens) :
    (Conflict f tokens → selectRes d tokens (fl.map Flag.name) = .exc .valueError) ∧
    (f.options = [] → selectRes d tokens (fl.map Flag.name) = .exc .indexError) := by
  have hm : f ∈ fl := by rw [e]; simp
  have hpre : ∀ g ∈ pre, g ∈ fl := fun g hg => by rw [e]; simp [hg]
  suffices hx : ∀ x, selectFor f.options f.type tokens = .exc x → selectRes d tokens (fl.map Flag.name) = .exc x by
    refine ⟨fun hc => hx _ ?_, fun ho => hx _ (by rw [ho]; exact selectFor_empty)⟩
    have hne : f.options ≠ [] := by obtain ⟨_, x, y, hx, _⟩ := hc; intro h0; rw [h0] at hx; cases hx
    rcases selectFor_cases (tokens := tokens) (hd.types f hm) hne (nodup_options hd.distinct hm) with h | h
    · exact h.2
    · exact absurd hc h.1
  intro x hx
  rw [e]
  clear e
  induction pre with
  | nil =>
    rw [List.nil_append, List.map_cons, selectRes, typeRes_declared hd hm]
    show andThen (selectFor f.options f.type tokens) _ = _
    rw [hx]; rfl
  | cons g pre ih =>
    rw [List.cons_append, List.map_cons, selectRes, typeRes_declared hd (hpre g (.head _))]
    have hg := hok g (.head _)
    rcases selectFor_cases (tokens := tokens) (hd.types g (hpre g (.head _))) hg.1 (nodup_options hd.distinct (hpre g (.head _)))
      with h | ⟨_, s, hs, _⟩
    · exact absurd h.1 hg.2
    · show andThen (selectFor g.options g.type tokens) _ = _
      rw [hs]
      show andThen (selectRes d tokens ((pre ++ f :: post).map Flag.name)) _ = _
      rw [ih (fun a ha => hok a (.tail _ ha)) (fun a ha => hpre a (.tail _ ha))]
      rfl

theorem selectionRes_declared {fl : List Flag} (hd : Declares d fl) (build : Str) :
    selectionRes d build = selectRes d (splitChar '_' build) (fl.map Flag.name) := by
  rw [selectionRes, optionsRes_declared hd, hd.names]
  show (if hasDuplicates (fl.flatMap Flag.options) = true then _ else _) = _
  rw [if_neg]
  rw [(hasDuplicates_iff _).2 hd.distinct]
  exact Bool.false_ne_true

/-! ### Uniqueness of the selection -/

theorem before_antisymm {a b : Str} (h1 : Before a b) (h2 : Before b a) : a = b := by
  induction h1 with
  | nil => cases h2; rfl
  | lt h =>
    cases h2 with
    | lt h' => omega
    | eq h' => exact absurd h (by omega)
  | eq h ih =>
    cases h2 with
    | lt h' => exact absurd h' (by omega)
    | eq h' => rw [ih h']

theorem sorted_unique {l l' : List Str} (h : l.Pairwise Before) (h' : l'.Pairwise Before) (hn : l.Nodup) (hn' : l'.Nodup)
    (hm : ∀ x, x ∈ l ↔ x ∈ l') : l = l' := by
  induction l generalizing l' with
  | nil =>
    cases l' with
    | nil => rfl
    | cons a l' => exact absurd ((hm a).2 (.head _)) (by simp)
  | cons a l ih =>
    cases l' with
    | nil => exact absurd ((hm a).1 (.head _)) (by simp)
    | cons b l' =>
      rw [List.pairwise_cons] at h h'
      rw [List.nodup_cons] at hn hn'
      have hab : a = b := by
        rcases List.mem_cons.1 ((hm a).1 (.head _)) with e | ha
        · exact e
        · rcases List.mem_cons.1 ((hm b).2 (.head _)) with e | hb
          · exact e.symm
          · exact before_antisymm (h.1 b hb) (h'.1 a ha)
      subst hab
      rw [ih h.2 h'.2 hn.2 hn'.2 fun x => ?_]
      constructor
      · intro hx
        rcases List.mem_cons.1 ((hm x).1 (.tail _ hx)) with rfl | hx'
        · exact absurd hx hn.1
        · exact hx'
      · intro hx
        rcases List.mem_cons.1 ((hm x).2 (.tail _ hx)) with rfl | hx'
        · exact absurd hx hn'.1
        · exact hx'

theorem two_members {l : List Str} (h : 2 ≤ l.length) (hn : l.Nodup) : ∃ x y, x ∈ l ∧ y ∈ l ∧ x ≠ y := by
  cases l with
  | nil => simp at h
  | cons x l =>
    cases l with
    | nil => simp at h
    | cons y l =>
      refine ⟨x, y, by simp, by simp, fun e => ?_⟩
      rw [List.nodup_cons] at hn
      exact hn.1 (by simp [e])

theorem selected_unique {f : Flag} {w : List Str} {s s' : Sel} (h : Selected f w s) (h' : Selected f w s') : s = s' := by
  cases h with
  | default h1 h2 =>
    cases h' with
    | default h1' h2' => rw [h1] at h1'; cases h1'; rfl
    | one h1' h2' _ => exact absurd h2' (h2 _ h1')
    | many _ hl hn hm _ =>
      obtain ⟨x, y, hx, _, _⟩ := two_members hl hn
      exact absurd ((hm x).1 hx).2 (h2 x ((hm x).1 hx).1)
  | one h1 h2 h3 =>
    cases h' with
    | default h1' h2' => exact absurd h2 (h2' _ h1)
    | one h1' h2' h3' => rw [h3' _ h1 h2]
    | many _ hl hn hm _ =>
      obtain ⟨x, y, hx, hy, hxy⟩ := two_members hl hn
      exact absurd ((h3 x ((hm x).1 hx).1 ((hm x).1 hx).2).trans (h3 y ((hm y).1 hy).1 ((hm y).1 hy).2).symm) hxy
  | many _ hl hn hm hs =>
    cases h' with
    | default h1' h2' =>
      obtain ⟨x, y, hx, _, _⟩ := two_members hl hn
      exact absurd ((hm x).1 hx).2 (h2' x ((hm x).1 hx).1)
    | one h1' h2' h3' =>
      obtain ⟨x, y, hx, hy, hxy⟩ := two_members hl hn
      exact absurd ((h3' x ((hm x).1 hx).1 ((hm x).1 hx).2).trans (h3' y ((hm y).1 hy).1 ((hm y).1 hy).2).symm) hxy
    | many _ _ hn' hm' hs' => rw [sorted_unique hs hs' hn hn' fun x => (hm x).trans (hm' x).symm]

/-! ### The selection is a fixed point -/

/-- The options in a selection. -/
def selOptions : Sel → List Str
  | .one o => [o]
  | .many os => os

theorem splitChar_sep (c : Char) (x y : Str) : splitChar c (x ++ c :: y) = splitChar c x ++ splitChar c y := by
  induction x with
  | nil => simp [splitChar]
  | cons a x ih =>
    rw [List.cons_append, splitChar, splitChar, ih]
    split
    · rfl
    · cases h : splitChar c x with
      | nil => exact absurd h (splitChar_ne_nil c x)
      | cons w ws => rfl

theorem split_options (x : Str) (os : List Str) (hno : ∀ o ∈ os, '_' ∉ o) :
    splitChar '_' (x ++ os.flatMap fun o => '_' :: o) = splitChar '_' x ++ os := by
  induction os generalizing x with
  | nil => simp
  | cons o os ih =>
    rw [List.flatMap_cons, List.cons_append, splitChar_sep, ih o fun a ha => hno a (.tail _ ha),
      splitChar_plain (hno o (.head _))]
    rfl

theorem selText_options (l : List (Str × Sel)) :
    (l.flatMap fun p => selText p.2) = (l.flatMap fun p => selOptions p.2).flatMap fun o => '_' :: o := by
  induction l with
  | nil => rfl
  | cons p l ih =>
    rw [List.flatMap_cons, List.flatMap_cons, List.flatMap_append, ih]
    obtain ⟨f, s⟩ := p
    cases s with
    | one o => simp [selText, selOptions]
    | many os => rfl

/-- The words of a build name made from any beginning and the text of a selection. -/
theorem split_selText (x : Str) (l : List (Str × Sel)) (hno : ∀ p ∈ l, ∀ o ∈ selOptions p.2, '_' ∉ o) :
    splitChar '_' (x ++ l.flatMap fun p => selText p.2) = splitChar '_' x ++ l.flatMap fun p => selOptions p.2 := by
  rw [selText_options, split_options]
  intro o ho
  obtain ⟨p, hp, h⟩ := List.mem_flatMap.1 ho
  exact hno p hp o h

theorem selOptions_mem {f : Flag} {w : List Str} {s : Sel} (h : Selected f w s) : ∀ o ∈ selOptions s, o ∈ f.options := by
  intro o ho
  cases h with
  | default h1 _ => cases (List.mem_singleton.1 ho); rw [h1]; exact .head _
  | one h1 _ _ => cases (List.mem_singleton.1 ho); exact h1
  | many _ _ _ hm _ => exact ((hm o).1 ho).1

/-- What was selected is selected again when exactly the selected options are among the words. -/
theorem selected_again {f : Flag} {w w' : List Str} {s : Sel} (h : Selected f w s)
    (hw : ∀ x ∈ f.options, x ∈ w' ↔ x ∈ selOptions s) : Selected f w' s := by
  cases h with
  | @default o rest h1 h2 =>
    have ho : o ∈ f.options := by rw [h1]; exact .head _
    exact .one ho ((hw _ ho).2 (.head _)) fun x hx hx' => List.mem_singleton.1 ((hw x hx).1 hx')
  | @one o h1 h2 h3 => exact .one h1 ((hw _ h1).2 (.head _)) fun x hx hx' => List.mem_singleton.1 ((hw x hx).1 hx')
  | @many os h1 h2 h3 h4 h5 =>
    refine .many h1 h2 h3 (fun x => ⟨fun hx => ?_, fun hx => (hw x hx.1).1 hx.2⟩) h5
    have := ((h4 x).1 hx).1
    exact ⟨this, (hw x this).2 hx⟩

theorem not_conflict_of_selected {f : Flag} {w : List Str} {s : Sel} (hn : f.type = py!"SELECT_ONE" ∨ f.type = py!"SELECT_MANY")
    (h : Selected f w s) : f.options ≠ [] ∧ ¬ Conflict f w := by
  cases h with
  | default h1 h2 =>
    refine ⟨by rw [h1]; simp, ?_⟩
    rintro ⟨_, x, y, hx, _, _, hx', _⟩
    exact h2 x hx hx'
  | one h1 h2 h3 =>
    refine ⟨(fun h0 => by rw [h0] at h1; cases h1), ?_⟩
    rintro ⟨_, x, y, hx, hy, hxy, hx', hy'⟩
    exact hxy ((h3 x hx hx').trans (h3 y hy hy').symm)
  | many h1 h2 h3 h4 _ =>
    obtain ⟨x, y, hx, _, _⟩ := two_members h2 h3
    refine ⟨fun h0 => ?_, ?_⟩
    · have := ((h4 x).1 hx).1; rw [h0] at this; cases this
    · rintro ⟨h5, _⟩; rw [h1] at h5; exact absurd h5 (by decide)

/-- Options of different flags differ. -/
theorem flag_of_option {fl : List Flag} (h : (fl.flatMap Flag.options).Nodup) {f g : Flag} (hf : f ∈ fl) (hg : g ∈ fl)
    {o : Str} (ho : o ∈ f.options) (ho' : o ∈ g.options) : f = g := by
  induction fl with
  | nil => cases hf
  | cons a fl ih =>
    rw [List.flatMap_cons, List.nodup_append] at h
    rcases List.mem_cons.1 hf with hfa | hfa
    · rcases List.mem_cons.1 hg with hga | hga
      · rw [hfa, hga]
      · exact absurd rfl (h.2.2 o (hfa ▸ ho) o (List.mem_flatMap.2 ⟨g, hga, ho'⟩))
    · rcases List.mem_cons.1 hg with hga | hga
      · exact absurd rfl (h.2.2 o (hga ▸ ho') o (List.mem_flatMap.2 ⟨f, hfa, ho⟩))
      · exact ih h.2.1 hfa hga

theorem nodup_names {fl : List Flag} (h : (fl.flatMap Flag.options).Nodup) (hne : ∀ f ∈ fl, f.options ≠ [])
    (he : ∀ f g, f ∈ fl → g ∈ fl → f.name = g.name → f.options = g.options) : (fl.map Flag.name).Nodup := by
  induction fl with
  | nil => exact List.nodup_nil
  | cons a fl ih =>
    rw [List.flatMap_cons, List.nodup_append] at h
    rw [List.map_cons, List.nodup_cons]
    refine ⟨fun hm => ?_, ih h.2.1 (fun f hf => hne f (.tail _ hf)) fun f g hf hg => he f g (.tail _ hf) (.tail _ hg)⟩
    obtain ⟨g, hg, e⟩ := List.mem_map.1 hm
    have ho := he a g (.head _) (.tail _ hg) e.symm
    cases hx : a.options with
    | nil => exact hne a (.head _) hx
    | cons o rest =>
      exact h.2.2 o (by rw [hx]; exact .head _) o (List.mem_flatMap.2 ⟨g, hg, by rw [← ho, hx]; exact .head _⟩) rfl

/-- A list with one entry for every flag, each right, is the selection. -/
theorem selection_unique {fl : List Flag} {w : List Str} : ∀ {r r' : List (Str × Sel)}, (fl.map Flag.name).Nodup →
    r.map Prod.fst = fl.map Flag.name → r'.map Prod.fst = fl.map Flag.name →
    (∀ f ∈ fl, ∃ s, (f.name, s) ∈ r ∧ Selected f w s) → (∀ f ∈ fl, ∃ s, (f.name, s) ∈ r' ∧ Selected f w s) → r = r' := by
  induction fl with
  | nil =>
    intro r r' _ h1 h2 _ _
    simp at h1 h2
    rw [h1, h2]
  | cons f fl ih =>
    intro r r' hn h1 h2 h3 h4
    rw [List.map_cons, List.nodup_cons] at hn
    cases r with
    | nil => simp at h1
    | cons p r =>
      cases r' with
      | nil => simp at h2
      | cons p' r' =>
        simp only [List.map_cons, List.cons.injEq] at h1 h2
        have hin : ∀ {q : Str × Sel} {t : List (Str × Sel)} {s : Sel}, q.1 = f.name → t.map Prod.fst = fl.map Flag.name →
            (f.name, s) ∈ q :: t → q = (f.name, s) := by
          intro q t s hq ht hm
          rcases List.mem_cons.1 hm with e | hm
          · exact e.symm
          · exact absurd (ht ▸ List.mem_map.2 ⟨_, hm, rfl⟩) hn.1
        obtain ⟨s, hs, hsel⟩ := h3 f (.head _)
        obtain ⟨s', hs', hsel'⟩ := h4 f (.head _)
        have e1 := hin h1.1 h1.2 hs
        have e2 := hin h2.1 h2.2 hs'
        have hrest : ∀ {q : Str × Sel} {t : List (Str × Sel)}, q.1 = f.name →
            (∀ g ∈ f :: fl, ∃ s, (g.name, s) ∈ q :: t ∧ Selected g w s) → ∀ g ∈ fl, ∃ s, (g.name, s) ∈ t ∧ Selected g w s := by
          intro q t hq hx g hg
          obtain ⟨s, hs, hsel⟩ := hx g (.tail _ hg)
          rcases List.mem_cons.1 hs with e | hs
          · rw [← e] at hq
            exact absurd (List.mem_map.2 ⟨g, hg, hq⟩) hn.1
          · exact ⟨s, hs, hsel⟩
        rw [e1, e2, selected_unique hsel hsel', ih hn.2 h1.2 h2.2 (hrest h1.1 h3) (hrest h2.1 h4)]

/-! ### Failures of the section itself -/

theorem typeRes_bad {f : Str} (hk : f ∈ Dict.keys d) :
    (¬ Acceptable d (valuesIn d f) → typeRes d f = .exc .systemExit) ∧
    (valuesIn d f = [] → typeRes d f = .exc .indexError) ∧
    (∀ t opts, Acceptable d (valuesIn d f) → valuesIn d f = t :: opts → t ≠ py!"SELECT_ONE" → t ≠ py!"SELECT_MANY" →
      typeRes d f = .exc .valueError) := by
  refine ⟨fun h => ?_, fun h => ?_, fun t opts h h0 h1 h2 => ?_⟩
  · rw [typeRes, valuesResult_bad hk h]; rfl
  · have ha : Acceptable d (valuesIn d f) := by
      rw [h]; exact ⟨List.nodup_nil, (fun v h => by cases h), (fun v h => by cases h)⟩
    rw [typeRes, valuesResult_ok hk ha, h]; rfl
  · rw [typeRes, valuesResult_ok hk h, h0]
    show (if t ∉ selectWords then _ else _) = _
    rw [if_pos]
    simp [selectWords, h1, h2]

theorem typeRes_good {f t : Str} {opts : List Str} (hk : f ∈ Dict.keys d) (ha : Acceptable d (valuesIn d f))
    (hv : valuesIn d f = t :: opts) (ht : t = py!"SELECT_ONE" ∨ t = py!"SELECT_MANY") : typeRes d f = .ok (opts, t) := by
  rw [typeRes, valuesResult_ok hk ha, hv]
  show (if t ∉ selectWords then _ else _) = _
  rw [if_neg]
  rcases ht with ht | ht <;> simp [selectWords, ht]

theorem optionsRes_fails {pre post : List Str} {f : Str} {x : PyExc}
    (hok : ∀ g ∈ pre, ∃ p, typeRes d g = .ok p) (hf : typeRes d f = .exc x) : optionsRes d (pre ++ f :: post) = .exc x := by
  induction pre with
  | nil => rw [List.nil_append, optionsRes, hf]; rfl
  | cons g pre ih =>
    obtain ⟨p, hp⟩ := hok g (.head _)
    rw [List.cons_append, optionsRes, hp]
    show andThen (optionsRes d (pre ++ f :: post)) _ = _
    rw [ih fun a ha => hok a (.tail _ ha)]; rfl

theorem optionsRes_all {opts : Str → List Str} {l : List Str} (h : ∀ f ∈ l, ∃ t, typeRes d f = .ok (opts f, t)) :
    optionsRes d l = .ok (l.flatMap opts) := by
  induction l with
  | nil => rfl
  | cons f l ih =>
    obtain ⟨t, ht⟩ := h f (.head _)
    rw [optionsRes, ht]
    show andThen (optionsRes d l) _ = _
    rw [ih fun a ha => h a (.tail _ ha)]; rfl

theorem defaultsRes_declared {fl : List Flag} (hd : Declares d fl) (l : List Flag) (hl : ∀ f ∈ l, f ∈ fl)
    (hne : ∀ f ∈ l, f.options ≠ []) :
    ∃ r, defaultsRes d (l.map Flag.name) = .ok r ∧ ∀ x, x ∈ r ↔ ∃ f ∈ l, ∃ rest, f.options = x :: rest := by
  induction l with
  | nil => exact ⟨[], rfl, fun x => by simp⟩
  | cons f l ih =>
    obtain ⟨r, h1, h2⟩ := ih (fun a ha => hl a (.tail _ ha)) (fun a ha => hne a (.tail _ ha))
    cases ho : f.options with
    | nil => exact absurd ho (hne f (.head _))
    | cons o rest =>
      refine ⟨o :: r, ?_, fun x => ?_⟩
      · rw [List.map_cons, defaultsRes, typeRes_declared hd (hl f (.head _))]
        dsimp only [andThen]
        rw [ho, h1]
      · simp only [List.mem_cons, h2]
        constructor
        · rintro (rfl | ⟨g, hg, h⟩)
          · exact ⟨f, .inl rfl, rest, ho⟩
          · exact ⟨g, .inr hg, h⟩
        · rintro ⟨g, rfl | hg, rest', h⟩
          · rw [ho] at h; cases h; exact .inl rfl
          · exact .inr ⟨g, hg, rest', h⟩

end
end CPE.KW
