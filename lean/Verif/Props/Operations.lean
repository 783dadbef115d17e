import Verif.Props.Dispatch
import Verif.Spec.Operations
/-
C38: the known operations.
-/
namespace CPE.Props
open Spec
variable {δ ω : Type} {E : Env δ ω} {n : Nat} {s : Str} {i f : Bool} {o o' : Obj δ ω} {r : δ}

/-- `names` are the names of the methods of the class of `E`. -/
def MethodNames (E : Env δ ω) (names : List Str) : Prop :=
  ∀ op, (py!"handler_" ++ op ∈ names ↔ HasPublic E op) ∧ (py!"_handler_" ++ op ∈ names ↔ HasPrivate E op)

theorem insertName_perm (x : Str) (l : List Str) : (insertName x l).Perm (x :: l) := by
  induction l with
  | nil => exact .refl _
  | cons y l ih =>
    unfold insertName
    split
    · exact .refl _
    · exact (ih.cons y).trans (.swap x y l)

theorem sortNames_perm (l : List Str) : (sortNames l).Perm l := by
  induction l with
  | nil => exact .refl _
  | cons x l ih => exact (insertName_perm x _).trans (ih.cons x)

theorem isPrefixOf?_iff (p s m : Str) : List.isPrefixOf? p s = some m ↔ s = p ++ m := by
  induction p generalizing s with
  | nil => simp [List.isPrefixOf?, eq_comm]
  | cons a p ih =>
    cases s with
    | nil => simp [List.isPrefixOf?]
    | cons b s =>
      simp only [List.isPrefixOf?, List.cons_append, List.cons.injEq]
      by_cases h : a = b
      · subst h; simp [ih]
      · simp [h, Ne.symm h]

theorem handlerSuffix_iff (name m : Str) :
    handlerSuffix name = some m ↔ name = py!"_handler_" ++ m ∨ name = py!"handler_" ++ m := by
  unfold handlerSuffix
  cases h1 : List.isPrefixOf? py!"_handler_" name with
  | some m' =>
    have e := (isPrefixOf?_iff _ _ _).mp h1
    subst e
    simp
  | none =>
    dsimp only
    rw [isPrefixOf?_iff]
    constructor
    · exact .inr
    · rintro (h | h)
      · rw [(isPrefixOf?_iff _ _ _).mpr h] at h1; cases h1
      · exact h

/-- C38: an operation is listed if and only if the class has a public or private method for it, the two hooks apart. -/
theorem C38_known_iff (names : List Str) (x : Str) :
    x ∈ knownOperations names ↔ ∃ m, (py!"handler_" ++ m ∈ names ∨ py!"_handler_" ++ m ∈ names) ∧
      m ≠ py!"initialize" ∧ m ≠ py!"finalize" ∧ x = shown m := by
  unfold knownOperations
  rw [List.mem_filterMap]
  constructor
  · rintro ⟨name, h1, h2⟩
    rw [(sortNames_perm names).mem_iff] at h1
    cases hs : handlerSuffix name with
    | none => rw [hs] at h2; cases h2
    | some m =>
      rw [hs] at h2
      dsimp only at h2
      split at h2
      · cases h2
      · rename_i hne
        simp only [not_or] at hne
        refine ⟨m, ?_, hne.2, hne.1, (Option.some.inj h2).symm⟩
        rcases (handlerSuffix_iff _ _).mp hs with rfl | rfl
        · exact .inr h1
        · exact .inl h1
  · rintro ⟨m, h1, h2, h3, rfl⟩
    have hcond : ¬ (m = py!"finalize" ∨ m = py!"initialize") := by rintro (h | h) <;> contradiction
    rcases h1 with h | h
    · refine ⟨_, (sortNames_perm names).mem_iff.mpr h, ?_⟩
      rw [(handlerSuffix_iff _ m).mpr (.inr rfl)]
      dsimp only
      rw [if_neg hcond]
      rfl
    · refine ⟨_, (sortNames_perm names).mem_iff.mpr h, ?_⟩
      rw [(handlerSuffix_iff _ m).mpr (.inl rfl)]
      dsimp only
      rw [if_neg hcond]
      rfl

theorem strLe_total (a b : Str) : (strLe a b || strLe b a) = true := by
  induction a generalizing b with
  | nil => cases b <;> simp [strLe]
  | cons x a ih =>
    cases b with
    | nil => simp [strLe]
    | cons y b =>
      by_cases h : x = y
      · subst h; simpa [strLe] using ih b
      · simp only [strLe, h, Ne.symm h, if_false, Bool.or_eq_true, decide_eq_true_eq]
        have : x.toNat ≠ y.toNat := fun e => h (Char.ext (UInt32.toNat_inj.mp e))
        omega

theorem strLe_trans (a b c : Str) (h1 : strLe a b = true) (h2 : strLe b c = true) : strLe a c = true := by
  induction a generalizing b c with
  | nil => simp [strLe]
  | cons x a ih =>
    cases b with
    | nil => simp [strLe] at h1
    | cons y b =>
      cases c with
      | nil => simp [strLe] at h2
      | cons z c =>
        simp only [strLe] at h1 h2 ⊢
        by_cases hxy : x = y
        · subst hxy
          rw [if_pos rfl] at h1
          by_cases hxz : x = z
          · rw [if_pos hxz] at h2 ⊢; exact ih b c h1 h2
          · rw [if_neg hxz] at h2 ⊢; exact h2
        · rw [if_neg hxy] at h1
          by_cases hyz : y = z
          · subst hyz; rw [if_neg hxy]; exact h1
          · rw [if_neg hyz] at h2
            simp only [decide_eq_true_eq] at h1 h2
            have : x ≠ z := by rintro rfl; omega
            rw [if_neg this]
            simp only [decide_eq_true_eq]; omega

theorem insertName_sorted (x : Str) (l : List Str) (h : l.Pairwise fun a b => strLe a b = true) :
    (insertName x l).Pairwise fun a b => strLe a b = true := by
  induction l with
  | nil => simp [insertName]
  | cons y l ih =>
    rw [List.pairwise_cons] at h
    unfold insertName
    by_cases hxy : strLe x y = true
    · rw [if_pos hxy]
      refine List.pairwise_cons.mpr ⟨fun z hz => ?_, List.pairwise_cons.mpr h⟩
      rcases List.mem_cons.mp hz with rfl | hz
      · exact hxy
      · exact strLe_trans _ _ _ hxy (h.1 z hz)
    · rw [if_neg hxy]
      refine List.pairwise_cons.mpr ⟨fun z hz => ?_, ih h.2⟩
      rw [(insertName_perm x l).mem_iff] at hz
      rcases List.mem_cons.mp hz with rfl | hz
      · have := strLe_total z y
        simpa [hxy] using this
      · exact h.1 z hz

theorem sortNames_sorted (l : List Str) : (sortNames l).Pairwise fun a b => strLe a b = true := by
  induction l with
  | nil => exact .nil
  | cons x l ih => exact insertName_sorted x _ ih

theorem nameBefore_of_le {a b : Str} (h : strLe a b = true) : NameBefore a b := by
  induction a generalizing b with
  | nil => exact .nil _
  | cons x a ih =>
    cases b with
    | nil => cases h
    | cons y b =>
      rw [strLe] at h
      split at h
      · subst x; exact .same _ (ih h)
      · exact .less (of_decide_eq_true h)

/-- C38: the operations are listed in the order of the names of their methods. -/
theorem C38_known_order (names : List Str) : ∃ sorted : List Str, sorted.Perm names ∧ sorted.Pairwise NameBefore ∧
    OperationsOf sorted (knownOperations names) := by
  refine ⟨sortNames names, sortNames_perm names, (sortNames_sorted names).imp nameBefore_of_le, ?_⟩
  unfold knownOperations
  generalize sortNames names = l
  induction l with
  | nil => exact .nil
  | cons name l ih =>
    rw [List.filterMap_cons]
    cases h : handlerSuffix name with
    | none =>
      refine .skip (fun op hop => ?_) ih
      rw [(handlerSuffix_iff name op).2 hop.1.symm] at h
      cases h
    | some m =>
      dsimp only
      by_cases hm : m = py!"finalize" ∨ m = py!"initialize"
      · rw [if_pos hm]
        refine .skip (fun op hop => ?_) ih
        rw [(handlerSuffix_iff name op).2 hop.1.symm] at h
        cases h
        rcases hm with hm | hm
        · exact hop.2.2 hm
        · exact hop.2.1 hm
      · rw [if_neg hm]
        exact .take ⟨((handlerSuffix_iff name m).1 h).symm, fun e => hm (.inr e), fun e => hm (.inl e)⟩ ih

/-- C38: there is only one list of operations for given methods, so `C38_known_order` says what it is. -/
theorem operationsOf_unique {l a b : List Str} (ha : OperationsOf l a) (hb : OperationsOf l b) : a = b := by
  induction ha generalizing b with
  | nil => cases hb; rfl
  | take h _ ih =>
    cases hb with
    | take h' hb =>
      rw [ih hb]
      have e1 := (handlerSuffix_iff _ _).2 h.1.symm
      have e2 := (handlerSuffix_iff _ _).2 h'.1.symm
      rw [e1] at e2
      cases e2
      rfl
    | skip h' _ => exact absurd h (h' _)
  | skip h _ ih =>
    cases hb with
    | take h' _ => exact absurd h' (h _)
    | skip _ hb => exact ih hb

theorem shown_opName {w m : Str} (hm : '-' ∉ m) : shown w = shown m ↔ opName w = m := by
  unfold shown opName
  constructor
  · intro h
    have hl : w.length = m.length := by simpa using congrArg List.length h
    refine List.ext_getElem (by simpa using hl) fun j h1 h2 => ?_
    have hj := congrArg (fun l => l[j]?) h
    have hw : j < w.length := by omega
    simp only [List.getElem?_map, List.getElem?_eq_getElem hw, List.getElem?_eq_getElem h2, Option.map_some,
      Option.some.injEq] at hj
    simp only [List.getElem_map]
    have hmj : m[j] ≠ '-' := fun e => hm (e ▸ List.getElem_mem h2)
    by_cases h3 : w[j] = '-'
    · rw [if_pos h3]
      rw [h3] at hj
      by_cases h4 : m[j] = '_'
      · exact h4.symm
      · rw [if_neg h4, if_neg (by decide)] at hj
        exact absurd hj.symm hmj
    · rw [if_neg h3]
      by_cases h4 : m[j] = '_'
      · rw [if_pos h4] at hj
        by_cases h5 : w[j] = '_'
        · rw [h5, h4]
        · rw [if_neg h5] at hj; exact absurd hj h3
      · rw [if_neg h4] at hj
        by_cases h5 : w[j] = '_'
        · rw [if_pos h5] at hj; exact absurd hj.symm hmj
        · rw [if_neg h5] at hj; exact hj
  · rintro rfl
    rw [List.map_map]
    refine List.map_congr_left fun c _ => ?_
    simp only [Function.comp]
    by_cases h : c = '-'
    · subst h; rfl
    · rw [if_neg h]

/-- C38: let `k` be an option key whose first word `w` is a possible operation. If the operation is listed (with
dashes for underscores) no section ever stores `k`; if it is neither listed nor a hook, `k` is not claimed by any
handler, so (C11) it is stored wherever it occurs. -/
theorem C38_listed_never_stored {names : List Str} (hn : MethodNames E names) (hid : ∀ m, (py!"handler_" ++ m ∈ names ∨ py!"_handler_" ++ m ∈ names) → '-' ∉ m)
    {k w : Str} {ps : List Str} (hk : Words k (w :: ps)) (hw : OpWord w) :
    (shown w ∈ knownOperations names → (∀ d, Resolved E s d → k ∉ Dict.keys d) ∧ ¬ Unclaimed E k) ∧
    (shown w ∉ knownOperations names → opName w ≠ py!"initialize" → opName w ≠ py!"finalize" → Unclaimed E k) := by
  have huniq : Unclaimed E k → ¬ HasPublic E (opName w) ∧ ¬ HasPrivate E (opName w) := by
    rintro ⟨w', ps', h1, h2⟩
    have e1 := (C31_split_iff_words _ _).mpr h1
    rw [(C31_split_iff_words _ _).mpr hk] at e1
    cases e1
    rcases h2 with h | h
    · exact absurd hw h
    · exact h
  constructor
  · intro hm
    obtain ⟨m, h1, h2, h3, h4⟩ := (C38_known_iff names _).mp hm
    have hop : opName w = m := (shown_opName (hid m h1)).mp h4
    have hnot : ¬ Unclaimed E k := by
      intro hu
      obtain ⟨u1, u2⟩ := huniq hu
      rw [hop] at u1 u2
      rcases h1 with h | h
      · exact u1 ((hn m).1.mp h)
      · exact u2 ((hn m).2.mp h)
    refine ⟨fun d hd hkd => ?_, hnot⟩
    obtain ⟨t, _, keys, key, v, _, _, h7⟩ := (C02_keys_are_closure hd k).mp hkd
    exact hnot ((store_iff E t t key k v).mp h7).choose_spec.2.2.2
  · intro hm hi hf
    refine ⟨w, ps, hk, .inr ⟨fun h => hm ?_, fun h => hm ?_⟩⟩
    · exact (C38_known_iff names _).mpr ⟨opName w, .inl ((hn _).1.mpr h), hi, hf, by
        rw [shown_opName (hid _ (.inl ((hn _).1.mpr h)))]⟩
    · exact (C38_known_iff names _).mpr ⟨opName w, .inr ((hn _).2.mpr h), hi, hf, by
        rw [shown_opName (hid _ (.inr ((hn _).2.mpr h)))]⟩

/-- C38: an option whose operation is `initialize` or `finalize` calls the hook and is not stored, although neither
is ever listed. (`priv`: the class defines no `_handler_initialize` / `_handler_finalize`.) -/
theorem C38_hooks_by_option (names : List Str) (root key : Str) (ps : List Str) (x v : Option Str)
    (hx : E.cfg.value s key = .ok x) (hv : Cleaned x v) :
    (py!"initialize" ∉ knownOperations names ∧ py!"finalize" ∉ knownOperations names) ∧
    (Words (strip key) (py!"initialize" :: ps) → ¬ HasPrivate E py!"initialize" →
      meaning E root s key = .events [.call E.hookInit
        { sectionName := s, sectionRoot := root, rawKey := some (strip key), rawValue := v, op := py!"initialize",
          params := ps, value := v, handlerName := py!"handler_initialize" }]) ∧
    (Words (strip key) (py!"finalize" :: ps) → ¬ HasPrivate E py!"finalize" →
      meaning E root s key = .events [.call E.hookFinal
        { sectionName := s, sectionRoot := root, rawKey := some (strip key), rawValue := v, op := py!"finalize",
          params := ps, value := v, handlerName := py!"handler_finalize" }]) := by
  refine ⟨⟨?_, ?_⟩, ?_, ?_⟩
  · intro h
    obtain ⟨m, _, h2, _, h4⟩ := (C38_known_iff names _).mp h
    apply h2
    have : opName py!"initialize" = m := by
      have hd : '-' ∉ m := by
        intro hm
        have : '-' ∈ shown m := List.mem_map.mpr ⟨'-', hm, by decide⟩
        rw [← h4] at this
        revert this; decide
      exact (shown_opName hd).mp (by rw [← h4]; decide)
    rw [← this]; decide
  · intro h
    obtain ⟨m, _, _, h2, h4⟩ := (C38_known_iff names _).mp h
    apply h2
    have : opName py!"finalize" = m := by
      have hd : '-' ∉ m := by
        intro hm
        have : '-' ∈ shown m := List.mem_map.mpr ⟨'-', hm, by decide⟩
        rw [← h4] at this
        revert this; decide
      exact (shown_opName hd).mp (by rw [← h4]; decide)
    rw [← this]; decide
  · intro hw hp
    exact (C10_routing E root s key py!"initialize" ps x v hx hv ⟨_, hw, by decide +kernel, by decide⟩).1 _ rfl hp
  · intro hw hp
    exact (C10_routing E root s key py!"finalize" ps x v hx hv ⟨_, hw, by decide +kernel, by decide⟩).1 _ rfl hp

/-- The methods of the example class. -/
def exampleNames : List Str :=
  [py!"parse_section", py!"handler_set_var", py!"_handler_use", py!"handler_initialize", py!"handler_finalize"]

example : knownOperations exampleNames = [py!"use", py!"set-var"] := by decide +kernel

example : MethodNames Example.env exampleNames := by
  intro op
  simp only [exampleNames, List.mem_cons, List.not_mem_nil, or_false, List.cons_append, List.nil_append, List.cons.injEq,
    Char.reduceEq, true_and, false_and, false_or, or_false, HasPublic, HasPrivate, Example.env]
  constructor
  · by_cases h : op = py!"set_var"
    · subst h; simp
    · simp [h]
  · by_cases h : op = py!"use"
    · subst h; simp
    · simp [h]

/-- One line of the message. -/
def bulletLine (op : Str) : Str := py!"|- '" ++ op ++ py!"'"

theorem bulletList_eq (op : Str) (ops : List Str) :
    bulletList (op :: ops) = (((op :: ops).map bulletLine).intersperse py!"\n").flatten ++ py!"\n" := by
  induction ops generalizing op with
  | nil => simp [bulletList, bulletLine]
  | cons op' ops ih =>
    have h1 : bulletList (op :: op' :: ops) = bulletLine op ++ (py!"\n" ++ bulletList (op' :: ops)) := by
      simp [bulletList, bulletLine]
    rw [h1, ih op']
    simp [bulletLine]

/-- C38: the message shown to the user: a heading and one line per operation, in the order of the list. -/
theorem C38_message (ops : List Str) : knownOperationsMessage ops =
    ((py!"Valid operations are:" :: ops.map fun op => py!"|- '" ++ op ++ py!"'").intersperse py!"\n").flatten := by
  have drop : ∀ x : Str, (∀ c, x.getLast? = some c → isSpace c = false) → rstrip (x ++ py!"\n") = x := by
    intro x hx
    have h1 : rstrip (x ++ py!"\n") = rstrip x := by
      have : isSpace '\n' = true := by decide
      simp [rstrip, rstripBy, this]
    rw [h1]
    exact rstripBy_eq_self hx
  unfold knownOperationsMessage
  cases ops with
  | nil => decide +kernel
  | cons op ops =>
    rw [bulletList_eq, ← List.append_assoc, drop]
    · change _ = ((py!"Valid operations are:" :: (op :: ops).map bulletLine).intersperse py!"\n").flatten
      simp
    · intro c hc
      have hlast : ∀ (op : Str) (ops : List Str), (((op :: ops).map bulletLine).intersperse py!"\n").flatten.getLast? = some '\'' := by
        intro op ops
        induction ops generalizing op with
        | nil =>
          change (py!"|- '" ++ op ++ py!"'" ++ []).getLast? = _
          rw [List.append_nil, List.getLast?_append]; rfl
        | cons op' ops ih =>
          have h2 := ih op'
          simp only [List.map_cons, List.intersperse_cons_cons, List.flatten_cons] at h2 ⊢
          rw [List.getLast?_append, List.getLast?_append, h2]
          rfl
      rw [List.getLast?_append, hlast] at hc
      cases hc
      decide

example : knownOperationsMessage [py!"use", py!"set-var"] = py!"Valid operations are:\n|- 'use'\n|- 'set-var'" := by
  decide +kernel

end CPE.Props
