import Verif.Props.Keywords
import Verif.Props.SetEnvironment
import Verif.Spec.Dispatch
/-
What the small functions mean that the specifications share with the model: the laws of dictionaries and sets, joining
and splitting of texts, the listing of a configuration, the classes of operations. A reader of a statement in which one of
them occurs needs nothing but these laws.
-/
namespace CPE.Props
open CPE CPE.Spec

/-! ### Dictionaries and sets -/

section
variable {κ ν : Type} [DecidableEq κ]

/-- C01: `d[k]` is the value of the first entry with key `k`. -/
theorem C01_dict_get (d : Dict κ ν) (k : κ) (v : ν) :
    (Dict.get? d k = some v ↔ ∃ a b, d = a ++ (k, v) :: b ∧ ∀ e ∈ a, e.1 ≠ k) ∧
    (Dict.get? d k = none ↔ ∀ e ∈ d, e.1 ≠ k) := by
  induction d with
  | nil => simp [Dict.get?]
  | cons e d ih =>
    obtain ⟨k', v'⟩ := e
    by_cases hk : k' = k
    · subst hk
      refine ⟨⟨fun h => ?_, ?_⟩, ?_⟩
      · rw [Dict.get?, if_pos rfl] at h
        cases h
        exact ⟨[], d, rfl, by simp⟩
      · rintro ⟨a, b, h, ha⟩
        rw [Dict.get?, if_pos rfl]
        cases a with
        | nil => simp only [List.nil_append, List.cons.injEq, Prod.mk.injEq] at h; rw [h.1.2]
        | cons x a =>
          simp only [List.cons_append, List.cons.injEq] at h
          exact absurd (by rw [← h.1]) (ha x (List.mem_cons_self ..))
      · simp [Dict.get?]
    · rw [Dict.get?, if_neg hk]
      refine ⟨⟨fun h => ?_, ?_⟩, ?_⟩
      · obtain ⟨a, b, h1, h2⟩ := ih.1.1 h
        exact ⟨(k', v') :: a, b, by rw [h1]; rfl, by simp [hk]; exact fun x y hxy => h2 _ hxy⟩
      · rintro ⟨a, b, h, ha⟩
        cases a with
        | nil => simp only [List.nil_append, List.cons.injEq, Prod.mk.injEq] at h; exact absurd h.1.1 hk
        | cons x a =>
          simp only [List.cons_append, List.cons.injEq] at h
          exact ih.1.2 ⟨a, b, h.2, fun e he => ha e (List.mem_cons_of_mem _ he)⟩
      · rw [ih.2]; simp [hk]

/-- C01: `d[k] = v` overwrites the first entry with key `k` where it stands, or puts a new entry at the end. -/
theorem C01_dict_set (d : Dict κ ν) (k : κ) (v : ν) :
    (∀ a w b, d = a ++ (k, w) :: b → (∀ e ∈ a, e.1 ≠ k) → Dict.set d k v = a ++ (k, v) :: b) ∧
    ((∀ e ∈ d, e.1 ≠ k) → Dict.set d k v = d ++ [(k, v)]) := by
  induction d with
  | nil => simp [Dict.set]
  | cons e d ih =>
    obtain ⟨k', v'⟩ := e
    refine ⟨fun a w b h ha => ?_, fun h => ?_⟩
    · cases a with
      | nil =>
        simp only [List.nil_append, List.cons.injEq, Prod.mk.injEq] at h
        rw [Dict.set, if_pos h.1.1, h.1.1, h.2]; rfl
      | cons x a =>
        simp only [List.cons_append, List.cons.injEq] at h
        have hx : k' ≠ k := by have := ha x (List.mem_cons_self ..); rw [← h.1] at this; exact this
        rw [Dict.set, if_neg hx, ih.1 a w b h.2 fun e he => ha e (List.mem_cons_of_mem _ he), h.1]; rfl
    · rw [Dict.set, if_neg (h _ (List.mem_cons_self ..)), ih.2 fun e he => h e (List.mem_cons_of_mem _ he)]; rfl

/-- C01: the keys of a dictionary are those of its entries, in order; a key is in it if an entry has it. -/
theorem C01_dict_keys (d : Dict κ ν) (k : κ) :
    Dict.keys d = d.map (fun e => e.1) ∧ (Dict.mem d k = true ↔ ∃ v, (k, v) ∈ d) := by
  refine ⟨rfl, ?_⟩
  rw [Dict.mem, Dict.get?_isSome_iff, Dict.keys]
  simp

/-- C67: adding to a set, and removing from it. -/
theorem C67_sets (s : List κ) (k x : κ) :
    (x ∈ setAdd s k ↔ x = k ∨ x ∈ s) ∧ (x ∈ setDel s k ↔ x ∈ s ∧ x ≠ k) := by
  refine ⟨?_, by simp [setDel]⟩
  unfold setAdd
  split
  · rename_i h
    exact ⟨.inr, fun hx => hx.elim (fun e => e ▸ h) id⟩
  · simp

example : Dict.set [(1, 'a'), (2, 'b'), (3, 'c')] 2 'x' = [(1, 'a'), (2, 'x'), (3, 'c')] := by decide
example : Dict.get? [(1, 'a'), (2, 'b'), (2, 'c')] 2 = some 'b' := by decide

end

/-! ### Texts -/

/-- C45: joining puts the separator between the pieces. -/
theorem C45_joined (sep : Str) (l : List Str) : joinStr sep l = (l.intersperse sep).flatten := by
  induction l with
  | nil => rfl
  | cons x l ih =>
    cases l with
    | nil => simp [joinStr]
    | cons y l => rw [SetEnv.joinStr_cons_cons, ih]; simp [List.intersperse]

/-- C50: cutting a text at every `c` gives the pieces without `c` that make up the text with `c` between them, one
piece at least. -/
theorem C50_split (c : Char) (s : Str) (l : List Str) :
    SetEnv.splitChar c s = l ↔ l ≠ [] ∧ (∀ x ∈ l, c ∉ x) ∧ s = (l.intersperse [c]).flatten := by
  rw [← C45_joined]
  constructor
  · rintro rfl
    exact ⟨SetEnv.splitChar_ne_nil c s, SetEnv.splitChar_not_mem c s, (SetEnv.joinStr_splitChar c s).symm⟩
  · rintro ⟨h1, h2, rfl⟩
    exact SetEnv.splitChar_joinStr h1 h2

example : SetEnv.splitChar '^' py!"a^^b^" = [py!"a", [], py!"b", []] := by decide +kernel
example : joinStr py!":" [py!"/usr", [], py!"/opt"] = py!"/usr::/opt" := by decide +kernel

/-- C50: the values a specification speaks of are the words in the text of the key, apart from empty strings; if no piece
is blank there are no empty strings. -/
theorem C50_listed {d : Options} {k : Str} {v : Option Str} (h : Dict.get? d k = some v) :
    KW.Spec.SameWords (KW.Spec.valuesIn d k) (KW.Spec.words (KW.Spec.textOf v)) ∧
    ((∀ line ∈ SetEnv.splitChar '\n' (KW.Spec.textOf v), ∀ g ∈ KW.Spec.lineWords line, g = [] ∨ strip g ≠ []) →
      KW.Spec.valuesIn d k = KW.Spec.words (KW.Spec.textOf v)) := by
  have hv : KW.Spec.valuesIn d k = KW.valuesOf (KW.Spec.textOf v) := by rw [KW.Spec.valuesIn, h]; rfl
  rw [hv]
  exact ⟨KW.valuesOf_words _, fun hb => KW.valuesOf_noBlank hb⟩

example : KW.Spec.valuesIn [(py!"key", some py!"^ one # not\n^ two^three")] py!"key" =
    [py!"one", py!"two", py!"three"] := by decide +kernel

/-! ### Configurations -/

/-- C35: the sections of a configuration, in the order of the file; the common section is not one of them. -/
theorem C35_sections (c : Cfg) (s : Str) :
    c.sectionNames = c.sections.map (fun e => e.1) ∧ (c.hasSection s = true ↔ ∃ d, (s, d) ∈ c.sections) :=
  ⟨rfl, (C01_dict_keys c.sections s).2⟩

/-- C35: the options of a section: its own in order, then those of the common section it does not have; an unknown
section has none. -/
theorem C35_options (c : Cfg) (s : Str) :
    (s = c.commonName → c.optionNames s = some (c.common.map fun e => e.1)) ∧
    (s ≠ c.commonName → (∀ d, (s, d) ∉ c.sections) → c.optionNames s = none) ∧
    (s ≠ c.commonName → ∀ a d b, c.sections = a ++ (s, d) :: b → (∀ e ∈ a, e.1 ≠ s) →
      ∃ rest, c.optionNames s = some (d.map (fun e => e.1) ++ rest) ∧ List.Sublist rest (c.common.map fun e => e.1) ∧
        ∀ k, k ∈ rest ↔ (∃ v, (k, v) ∈ c.common) ∧ ∀ v, (k, v) ∉ d) := by
  refine ⟨fun h => by rw [Cfg.optionNames, if_pos h]; rfl, fun h hn => ?_, fun h a d b hs ha => ?_⟩
  · have hg : Dict.get? c.sections s = none :=
      (C01_dict_get c.sections s []).2.2 fun e he hes => hn e.2 (by rw [← hes]; exact he)
    rw [Cfg.optionNames, if_neg h, hg]
  · have hg : Dict.get? c.sections s = some d := (C01_dict_get c.sections s d).1.2 ⟨a, b, hs, ha⟩
    refine ⟨(Dict.keys c.common).filter fun k => !Dict.mem d k, ?_, List.filter_sublist, fun k => ?_⟩
    · rw [Cfg.optionNames, if_neg h, hg]; rfl
    · have hm := (C01_dict_keys d k).2
      have hc := (C01_dict_keys c.common k).2
      rw [Dict.mem, Dict.get?_isSome_iff] at hc
      rw [List.mem_filter, hc, Bool.not_eq_true', ← Bool.not_eq_true, hm]
      simp

/-- C35: the raw value of an option: that of the section, or else that of the common section. -/
theorem C35_raw (c : Cfg) (s k : Str) :
    (∀ d v, s ≠ c.commonName → Dict.get? c.sections s = some d → Dict.get? d k = some v → c.rawValue s k = some v) ∧
    (∀ d, s ≠ c.commonName → Dict.get? c.sections s = some d → Dict.get? d k = none →
      c.rawValue s k = Dict.get? c.common k) ∧
    (s = c.commonName ∨ Dict.get? c.sections s = none → c.rawValue s k = Dict.get? c.common k) := by
  refine ⟨fun d v h h1 h2 => by simp [Cfg.rawValue, h, h1, h2], fun d h h1 h2 => by simp [Cfg.rawValue, h, h1, h2], ?_⟩
  rintro (h | h) <;> simp [Cfg.rawValue, h]

/-- A configuration with one option of its own and two common ones. -/
def pinCfg : Cfg where
  sections := [(py!"A", [(py!"x", some py!"1")])]
  common := [(py!"x", some py!"2"), (py!"y", none)]

example : pinCfg.optionNames py!"A" = some [py!"x", py!"y"] := by decide +kernel
example : pinCfg.rawValue py!"A" py!"x" = some (some py!"1") ∧ pinCfg.rawValue py!"A" py!"y" = some none := by
  decide +kernel
example : pinCfg.hasSection pinCfg.commonName = false := by decide +kernel

/-! ### Classes -/

/-- C50: the class that reads keyword files is the base class with default settings: no public handler beside the hooks,
`use` as its only operation. -/
theorem C50_class (c : Cfg) (op : Str) :
    (HasPrivate (KW.cls c) op ↔ op = py!"use") ∧ (HasPublic (KW.cls c) op ↔ op = py!"initialize" ∨ op = py!"finalize") ∧
    (KW.cls c).cfg = c ∧ (KW.cls c).level = 4 ∧ (KW.cls c).defaultName = py!"DEFAULT" := by
  refine ⟨?_, by simp [HasPublic, baseClass], rfl, rfl, rfl⟩
  simp only [HasPrivate, baseClass]
  split <;> simp_all

/-- C47: the operations of a SetEnvironment object: `use`, those that put an action into the list, and the two that take
actions out again. -/
theorem C47_operations (c : Cfg) (st : SetEnv.Settings) (op : Str) :
    (HasPrivate (SetEnv.env c st) op ↔ op = py!"use" ∨ op ∈ SetEnv.Spec.envvarActions ∨ op ∈ SetEnv.Spec.moduleActions ∨
      op = py!"envvar_remove" ∨ op = py!"module_remove") ∧
    (HasPublic (SetEnv.env c st) op ↔ op = py!"initialize" ∨ op = py!"finalize") := by
  refine ⟨?_, by simp [HasPublic, SetEnv.env]⟩
  constructor
  · intro h
    by_cases hm : op ∈ py!"use" :: SetEnv.Spec.envvarActions ++ SetEnv.Spec.moduleActions ++
        [py!"envvar_remove", py!"module_remove"]
    · simpa [or_assoc] using hm
    · refine absurd ?_ h
      simp only [SetEnv.Spec.envvarActions, SetEnv.Spec.moduleActions, SetEnv.Spec.opNames, List.map, List.cons_append,
        List.nil_append, List.mem_cons, List.not_mem_nil, or_false, not_or] at hm
      simp only [SetEnv.env, SetEnv.privMethod]
      simp [hm]
  · intro h
    have : op ∈ py!"use" :: SetEnv.Spec.envvarActions ++ SetEnv.Spec.moduleActions ++
        [py!"envvar_remove", py!"module_remove"] := by simpa [or_assoc] using h
    revert op
    intro op _ hm
    have all : ∀ o ∈ py!"use" :: SetEnv.Spec.envvarActions ++ SetEnv.Spec.moduleActions ++
        [py!"envvar_remove", py!"module_remove"], (SetEnv.privMethod o).isSome = true := by decide +kernel
    have := all op hm
    simp only [HasPrivate, SetEnv.env]
    intro hn
    rw [hn] at this
    exact absurd this (by simp)

end CPE.Props
