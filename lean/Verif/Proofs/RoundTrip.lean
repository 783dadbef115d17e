import Verif.Proofs.BaseClass
import Verif.Proofs.IniNames
import Verif.Props.Interpolation
/-
The text written by `unroll_to_str`, read back.
-/
namespace CPE
open Spec

/-! ### The rendered text as a document -/

/-- The line of one option, without its end. -/
def lineOf (sp : Bool) (kv : Str × Option Str) : Str := strip (kv.1 ++ delimOf sp ++ kv.2.getD [])

/-- The options of a section as the reader sees them: the empty line between sections is attached to the last one. -/
def docOptions : Options → Bool → List DocOption
  | [], _ => []
  | [kv], b => [(kv.1, some (kv.2.getD [] :: if b then [[]] else []))]
  | kv :: d, b => (kv.1, some [kv.2.getD []]) :: docOptions d b

/-- The document that a rendered text says. -/
def docOf : List (Str × Options) → Doc
  | [] => []
  | [b] => [(b.1, docOptions b.2 false)]
  | b :: bs => (b.1, docOptions b.2 true) :: docOf bs

/-- The lines of a rendered text. -/
def linesOfDoc (sp : Bool) : List (Str × Options) → List Str
  | [] => [[]]
  | [b] => (py!"[" ++ b.1 ++ py!"]") :: b.2.map (lineOf sp)
  | b :: bs => (py!"[" ++ b.1 ++ py!"]") :: b.2.map (lineOf sp) ++ [] :: linesOfDoc sp bs

theorem linesOf_unlines : ∀ (ls : List Str), LinesOf ls ((ls.map fun l => l ++ py!"\n").flatten)
  | [] => .nil
  | l :: ls => by
    rw [List.map_cons, List.flatten_cons, List.append_assoc]
    exact .unix (linesOf_unlines ls)

theorem render_unlines (sp : Bool) : ∀ (bs : List (Str × Options)),
    render sp bs = ((linesOfDoc sp bs).map fun l => l ++ py!"\n").flatten
  | [] => rfl
  | [b] => by
    simp only [render, renderSection, linesOfDoc, List.map_cons, List.flatten_cons, List.map_map, List.append_assoc]
    rfl
  | b :: b' :: bs => by
    rw [render.eq_3 sp b (b' :: bs) (by simp), linesOfDoc.eq_3 sp b (b' :: bs) (by simp), render_unlines sp (b' :: bs)]
    simp only [renderSection, List.map_append, List.map_cons, List.flatten_cons, List.flatten_append, List.map_map,
      List.append_assoc, List.cons_append]
    rfl

/-- The delimiters of a new object. -/
def stdDelims : List Char := ['=', ':']

theorem blanks_space : Blanks py!" " := by
  intro c hc
  cases List.mem_singleton.1 hc
  exact ⟨(Props.isSpace_iff _).1 (by decide), by decide, by decide⟩

theorem blanks_nil : Blanks [] := by intro c hc; cases hc

theorem tight_nil : Tight [] := ⟨(fun _ h => nomatch h), (fun _ h => nomatch h)⟩

theorem goodKey_plain {d : Options} (hp : PlainOptions d) {kv : Str × Option Str} (hm : kv ∈ d) (hne : kv.1 ≠ []) (ht : Tight kv.1) :
    GoodKey stdDelims kv.1 := by
  obtain ⟨h1, h2, h3, h4⟩ := hp kv hm
  refine ⟨hne, ht, h1, ?_, h3⟩
  intro c hc hd
  rcases List.mem_cons.1 hd with rfl | hd
  · exact (h2 _ hc).1 rfl
  · cases List.mem_singleton.1 hd; exact (h2 _ hc).2 rfl

theorem tight_of_tight {k v : Str} {a : Str} (hk : Tight k) (hne : k ≠ []) (hv : Tight v) (hvne : v ≠ []) : Tight (k ++ a ++ v) := by
  refine tight_append ?_ hv.2 (by simp [hne]) hvne
  intro c h
  cases k with
  | nil => exact absurd rfl hne
  | cons x k => exact hk.1 c h

theorem lineOf_option (sp : Bool) {kv : Str × Option Str} (hk : GoodKey stdDelims kv.1) (hv : PlainValue (kv.2.getD [])) :
    OptionLine stdDelims 0 (lineOf sp kv) kv.1 (some (kv.2.getD [])) := by
  have hc : ':' ∈ stdDelims := by decide
  by_cases hvne : kv.2.getD [] = []
  · have : lineOf sp kv = [] ++ kv.1 ++ (if sp then py!" " else []) ++ ':' :: [] ++ [] ++ [] := by
      unfold lineOf delimOf
      rw [hvne]
      refine (Props.C11_strip _ _).2 ⟨[], if sp then py!" " else [], ?_, by simp, ?_, ?_⟩
      · cases sp <;> simp
      · intro c hc
        cases sp
        · cases hc
        · exact (blanks_space c hc).1
      · have : Tight (kv.1 ++ ((if sp then py!" " else []) ++ py!":")) := by
          refine tight_append hk.tight.1 ?_ hk.nonempty (by simp)
          intro c h
          have : c = ':' := by cases sp <;> (simp at h; exact h.symm)
          rw [this]; exact white_colon
        have e : ([] ++ kv.1 ++ (if sp then py!" " else []) ++ ':' :: [] ++ [] ++ [] : Str) =
            kv.1 ++ ((if sp then py!" " else []) ++ py!":") := by simp
        rw [e]; exact this
    rw [this, hvne]
    exact .value blanks_nil rfl hk (by cases sp; exact blanks_nil; exact blanks_space) hc blanks_nil tight_nil
      ⟨by simp, by simp⟩ blanks_nil
  · have e : lineOf sp kv = [] ++ kv.1 ++ (if sp then py!" " else []) ++ ':' :: (if sp then py!" " else []) ++ kv.2.getD [] ++ [] := by
      unfold lineOf delimOf
      rw [strip_tight (tight_of_tight hk.tight hk.nonempty hv.2.1 hvne)]
      cases sp <;> simp
    rw [e]
    exact .value blanks_nil rfl hk (by cases sp; exact blanks_nil; exact blanks_space) hc
      (by cases sp; exact blanks_nil; exact blanks_space) hv.2.1 hv.1 blanks_nil

/-- What is asked of the options of a section. -/
structure Writable (d : Options) : Prop where
  plain : PlainOptions d
  keys : ∀ kv ∈ d, kv.1 ≠ [] ∧ Tight kv.1
  nodup : (Dict.keys d).Nodup

theorem Writable.tail {kv : Str × Option Str} {d : Options} (h : Writable (kv :: d)) : Writable d :=
  ⟨fun x hx => h.plain x (List.mem_cons_of_mem _ hx), fun x hx => h.keys x (List.mem_cons_of_mem _ hx),
    (List.nodup_cons.1 h.nodup).2⟩

theorem Writable.head {kv : Str × Option Str} {d : Options} (h : Writable (kv :: d)) (sp : Bool) :
    OptionLine stdDelims 0 (lineOf sp kv) kv.1 (some (kv.2.getD [])) :=
  lineOf_option sp (goodKey_plain h.plain (List.mem_cons_self ..) (h.keys _ (List.mem_cons_self ..)).1
    (h.keys _ (List.mem_cons_self ..)).2) (h.plain _ (List.mem_cons_self ..)).2.2.2

theorem body_rendered (sp b : Bool) : ∀ (d : Options), d ≠ [] → Writable d →
    BodyText stdDelims 0 (d.map (lineOf sp) ++ if b then [[]] else []) (docOptions d b)
  | [], h, _ => absurd rfl h
  | [kv], _, h => by
    have := BodyText.cons (OptionText.value (h.head sp) (ls := if b then [[]] else []) (vs := if b then [[]] else [])
      (by cases b; exact .nil; exact .blank blanks_nil .nil)) BodyText.nil
    simpa [docOptions] using this
  | kv :: kv' :: d, _, h => by
    rw [docOptions.eq_3 b kv (kv' :: d) (by simp)]
    exact .cons (ls := [lineOf sp kv]) (.value (h.head sp) .nil) (body_rendered sp b (kv' :: d) (by simp) h.tail)

theorem header_rendered {s : Str} (h : NameOk s) : HeaderLine s (py!"[" ++ s ++ py!"]") := by
  exact HeaderLine.mk (junk := []) h.1 h.2 ⟨by simp, by simp⟩ (by simp)

theorem sections_rendered (sp : Bool) : ∀ (bs : List (Str × Options)), bs ≠ [] →
    (∀ x ∈ bs, NameOk x.1 ∧ Writable x.2) → SectionsText stdDelims (linesOfDoc sp bs) (docOf bs)
  | [], h, _ => absurd rfl h
  | [b], _, h => by
    obtain ⟨h1, h2⟩ := h b (List.mem_cons_self ..)
    by_cases hd : b.2 = []
    · have := SectionsText.cons (ds := stdDelims) (skip := []) (i := 0) (header_rendered h1) (by simp) .nil .nil
      simpa [linesOfDoc, docOf, hd, docOptions] using this
    · have := SectionsText.cons (skip := []) (header_rendered h1) (by simp) (body_rendered sp false _ hd h2) .nil
      simpa [linesOfDoc, docOf] using this
  | b :: b' :: bs, _, h => by
    obtain ⟨h1, h2⟩ := h b (List.mem_cons_self ..)
    have ih := sections_rendered sp (b' :: bs) (by simp) fun x hx => h x (List.mem_cons_of_mem _ hx)
    rw [linesOfDoc.eq_3 sp b (b' :: bs) (by simp), docOf.eq_3 b (b' :: bs) (by simp)]
    by_cases hd : b.2 = []
    · have := SectionsText.cons (skip := [[]]) (i := 0) (header_rendered h1)
        (fun x hx => by cases List.mem_singleton.1 hx; exact .inr blanks_nil) .nil ih
      simpa [hd, docOptions] using this
    · have := SectionsText.cons (skip := []) (header_rendered h1) (by simp) (body_rendered sp true _ hd h2) ih
      simpa using this

theorem says_rendered (sp : Bool) {bs : List (Str × Options)} (h : ∀ x ∈ bs, NameOk x.1 ∧ Writable x.2) :
    Says stdDelims (render sp bs) (docOf bs) := by
  by_cases hb : bs = []
  · subst hb
    refine ⟨[[]], [], ?_, .nil, .unix .nil⟩
    intro x hx
    cases List.mem_singleton.1 hx
    exact .inr blanks_nil
  · refine ⟨[], _, by simp, sections_rendered sp bs hb h, ?_⟩
    rw [render_unlines]
    exact linesOf_unlines _

theorem docOf_names : ∀ (bs : List (Str × Options)), (docOf bs).map Prod.fst = bs.map Prod.fst
  | [] => rfl
  | [b] => rfl
  | b :: b' :: bs => by rw [docOf.eq_3 b (b' :: bs) (by simp)]; simp [docOf_names (b' :: bs)]

theorem docOptions_keys (b : Bool) : ∀ (d : Options), (docOptions d b).map Prod.fst = Dict.keys d
  | [] => rfl
  | [kv] => rfl
  | kv :: kv' :: d => by
    rw [docOptions.eq_3 b kv (kv' :: d) (by simp), List.map_cons, docOptions_keys b (kv' :: d)]; rfl

theorem docOptions_values (b : Bool) : ∀ (d : Options), (docOptions d b).map docValue = fillIn d
  | [] => rfl
  | [kv] => by
    simp only [docOptions, List.map_cons, List.map_nil, docValue, fillIn, Option.map_some, List.cons.injEq, and_true,
      Prod.mk.injEq, true_and, Option.some.injEq]
    cases b
    · by_cases h : kv.2.getD [] = []
      · simp [dropEmpty, joinNL, h]
      · simp [dropEmpty, joinNL, h]
    · by_cases h : kv.2.getD [] = []
      · simp [dropEmpty, joinNL, h]
      · simp [dropEmpty, joinNL, h]
  | kv :: kv' :: d => by
    rw [docOptions.eq_3 b kv (kv' :: d) (by simp), List.map_cons, docOptions_values b (kv' :: d)]
    have : docValue (kv.1, some [kv.2.getD []]) = (kv.1, some (kv.2.getD [])) := by
      by_cases h : kv.2.getD [] = []
      · simp [docValue, dropEmpty, joinNL, h]
      · simp [docValue, dropEmpty, joinNL, h]
    rw [this]; rfl

theorem docOf_map (bs : List (Str × Options)) : (docOf bs).map (fun x => (x.1, x.2.map docValue)) = bs.map fun b => (b.1, fillIn b.2) := by
  induction bs with
  | nil => rfl
  | cons b bs ih =>
    cases bs with
    | nil => simp [docOf, docOptions_values]
    | cons b' bs => rw [docOf.eq_3 b (b' :: bs) (by simp), List.map_cons, ih, docOptions_values]; rfl

theorem docOf_mem {bs : List (Str × Options)} {x : Str × List DocOption} (h : x ∈ docOf bs) :
    ∃ b ∈ bs, x.1 = b.1 ∧ x.2.map Prod.fst = Dict.keys b.2 := by
  induction bs with
  | nil => cases h
  | cons b bs ih =>
    cases bs with
    | nil =>
      cases List.mem_singleton.1 h
      exact ⟨b, List.mem_cons_self .., rfl, docOptions_keys _ _⟩
    | cons b' bs =>
      rw [docOf.eq_3 b (b' :: bs) (by simp)] at h
      rcases List.mem_cons.1 h with rfl | h
      · exact ⟨b, List.mem_cons_self .., rfl, docOptions_keys _ _⟩
      · obtain ⟨x', h1, h2⟩ := ih h
        exact ⟨x', List.mem_cons_of_mem _ h1, h2⟩

theorem docOf_strict {bs : List (Str × Options)} (hn : (bs.map Prod.fst).Nodup) (h : ∀ x ∈ bs, (Dict.keys x.2).Nodup) :
    (docOf bs).Strict := by
  refine ⟨by rw [docOf_names]; exact hn, ?_⟩
  intro x hx
  obtain ⟨b, h1, _, h2⟩ := docOf_mem hx
  rw [h2]; exact h b h1

theorem docOf_cfg {cn : Str} {bs : List (Str × Options)} (h : cn ∉ bs.map Prod.fst) :
    (docOf bs).cfg cn = { sections := bs.map fun b => (b.1, fillIn b.2), commonName := cn } := by
  unfold Doc.cfg
  have hne : ∀ x ∈ docOf bs, x.1 ≠ cn := by
    intro x hx e
    refine h ?_
    rw [← docOf_names]
    exact e ▸ List.mem_map_of_mem hx
  rw [List.filter_eq_self.2 (fun x hx => by simpa using hne x hx), docOf_map,
    List.find?_eq_none.2 (fun x hx => by simpa using hne x hx)]
  rfl


/-! ### Parsing the text again -/

theorem stores_map (d : Options) : stores (d.map fun kv => (.store kv.1 kv.2 : Ev Unit Unit)) = d := by
  induction d with
  | nil => rfl
  | cons kv d ih => exact congrArg (kv :: ·) ih

theorem fillIn_keys (d : Options) : Dict.keys (fillIn d) = Dict.keys d := by
  simp [fillIn, Dict.keys, List.map_map, Function.comp_def]

theorem fillIn_fillIn (d : Options) : fillIn (fillIn d) = fillIn d := by
  simp [fillIn, List.map_map, Function.comp_def]

/-- The plain configuration that a rendered text says. -/
def plainCfg (bs : List (Str × Options)) : Cfg :=
  { sections := bs.map fun b => (b.1, fillIn b.2), commonName := commonSectionName }

theorem plainCfg_names (bs : List (Str × Options)) : (plainCfg bs).sectionNames = bs.map Prod.fst := by
  simp [plainCfg, Cfg.sectionNames, Dict.keys, List.map_map, Function.comp_def]

theorem plainCfg_get {bs : List (Str × Options)} (hn : (bs.map Prod.fst).Nodup) {b : Str × Options} (hb : b ∈ bs) :
    Dict.get? (plainCfg bs).sections b.1 = some (fillIn b.2) := by
  have : ∀ (l : List (Str × Options)), (l.map Prod.fst).Nodup → b ∈ l →
      Dict.get? (l.map fun b => (b.1, fillIn b.2)) b.1 = some (fillIn b.2) := by
    intro l
    induction l with
    | nil => intro _ h; cases h
    | cons x l ih =>
      intro hn hb
      rw [List.map_cons, List.nodup_cons] at hn
      rcases List.mem_cons.1 hb with rfl | hb
      · simp [Dict.get?]
      · have : x.1 ≠ b.1 := fun e => hn.1 (e ▸ List.mem_map_of_mem hb)
        rw [List.map_cons, Dict.get?, if_neg this]
        exact ih hn.2 hb
  exact this bs hn hb

/-- What is known about sections that were resolved by a base class object. -/
structure Resolvable (c : Cfg) (bs : List (Str × Options)) : Prop where
  names : bs.map Prod.fst = c.sectionNames
  nodup : c.sectionNames.Nodup
  ok : ∀ x ∈ c.sectionNames, x ≠ [] ∧ OneLine x ∧ x ≠ commonSectionName
  resolved : ∀ b ∈ bs, Resolved (baseEnv c 0) b.1 b.2
  plain : ∀ b ∈ bs, PlainOptions b.2

section
variable {c : Cfg} {bs : List (Str × Options)}

theorem Resolvable.mem (h : Resolvable c bs) {b : Str × Options} (hb : b ∈ bs) : b.1 ∈ c.sectionNames :=
  h.names ▸ List.mem_map_of_mem hb

theorem Resolvable.writable (h : Resolvable c bs) {b : Str × Options} (hb : b ∈ bs) : NameOk b.1 ∧ Writable b.2 := by
  refine ⟨⟨(h.ok _ (h.mem hb)).1, (h.ok _ (h.mem hb)).2.1⟩, h.plain b hb, ?_, resolved_nodup (h.resolved b hb)⟩
  intro kv hkv
  obtain ⟨⟨w, ps, hw, _⟩, ht, _⟩ := resolved_entry (h.resolved b hb) (k := kv.1) (v := kv.2) hkv
  refine ⟨?_, ht⟩
  intro e
  rw [e] at hw
  have := (Props.C31_split_iff_words _ _).2 hw
  cases this

theorem Resolvable.says (h : Resolvable c bs) (sp : Bool) : Says stdDelims (render sp bs) (docOf bs) ∧ (docOf bs).Strict ∧
    (docOf bs).cfg commonSectionName = plainCfg bs :=
  ⟨says_rendered sp fun _ hb => h.writable hb,
    docOf_strict (h.names ▸ h.nodup) fun _ hb => (h.writable hb).2.nodup,
    docOf_cfg fun hm => (h.ok _ (h.names ▸ hm)).2.2 rfl⟩

theorem Resolvable.options (h : Resolvable c bs) {b : Str × Options} (hb : b ∈ bs) :
    (plainCfg bs).optionNames b.1 = some (Dict.keys b.2) := by
  unfold Cfg.optionNames
  have hne : b.1 ≠ (plainCfg bs).commonName := (h.ok _ (h.mem hb)).2.2
  rw [if_neg hne, plainCfg_get (h.names ▸ h.nodup) hb]
  simp [plainCfg, Dict.keys, fillIn, List.map_map, Function.comp_def]

theorem Resolvable.means (h : Resolvable c bs) {b : Str × Options} (hb : b ∈ bs) {kv : Str × Option Str} (hkv : kv ∈ b.2)
    (l : Nat) (root : Str) :
    meaning (baseEnv (plainCfg bs) l) root b.1 kv.1 = .events [.store kv.1 (some (kv.2.getD []))] := by
  obtain ⟨hu, ht, hq⟩ := resolved_entry (h.resolved b hb) (k := kv.1) (v := kv.2) hkv
  obtain ⟨_, htv, hpc⟩ := (h.plain b hb kv hkv).2.2.2
  rw [Props.store_iff]
  refine ⟨some (kv.2.getD []), Props.C39_plain _ _ _ _ ?_ hpc, ?_, (strip_tight ht).symm, hu⟩
  · unfold Cfg.rawValue
    have hne : b.1 ≠ (baseEnv (plainCfg bs) l).cfg.commonName := (h.ok _ (h.mem hb)).2.2
    rw [if_neg hne]
    have hg : Dict.get? (baseEnv (plainCfg bs) l).cfg.sections b.1 = some (fillIn b.2) := plainCfg_get (h.names ▸ h.nodup) hb
    rw [hg]
    have : Dict.get? (fillIn b.2) kv.1 = some (some (kv.2.getD [])) := by
      refine get?_of_mem (by rw [fillIn_keys]; exact resolved_nodup (h.resolved b hb)) ?_
      exact List.mem_map_of_mem (f := fun kv : Str × Option Str => (kv.1, some (kv.2.getD []))) hkv
    dsimp only
    rw [this]
  · rw [Props.cleaned_iff, Option.map_some, strip_tight htv]
    cases hv : kv.2 with
    | none => rfl
    | some x => exact congrArg some (hq x hv).symm

theorem Resolvable.unrolls (h : Resolvable c bs) {b : Str × Options} (hb : b ∈ bs) (l : Nat) (root : Str) :
    Unrolls (baseEnv (plainCfg bs) l) root (.sec [] b.1)
      (.visit b.1 :: (fillIn b.2).map fun kv => .store kv.1 kv.2) := by
  refine .sec (h.options hb) ?_
  have : ∀ d : Options, (∀ kv ∈ d, kv ∈ b.2) → Unrolls (baseEnv (plainCfg bs) l) root (.opts [b.1] b.1 (Dict.keys d))
      ((fillIn d).map fun kv => .store kv.1 kv.2) := by
    intro d
    induction d with
    | nil => intro _; exact .nil
    | cons kv d ih =>
      intro hd
      exact .plain (h.means hb (hd kv (List.mem_cons_self ..)) l root) (ih fun x hx => hd x (List.mem_cons_of_mem _ hx))
  exact this b.2 fun _ hx => hx

theorem Dict.mem_keys_of_get? {ν : Type} {d : Dict Str ν} {k : Str} {v : ν} (h : Dict.get? d k = some v) : k ∈ Dict.keys d :=
  (Dict.get?_isSome_iff d k).1 (by rw [h]; rfl)

theorem lastWrite_append (a b : List (Str × Option Str)) (k : Str) : lastWrite (a ++ b) k =
    match lastWrite b k with | some v => some v | none => lastWrite a k := by
  induction a with
  | nil => rw [List.nil_append]; cases lastWrite b k <;> rfl
  | cons x a ih =>
    rw [List.cons_append, lastWrite, ih]
    cases h : lastWrite b k with
    | some v => rfl
    | none => rfl

theorem lastWrite_nodup {d : Options} (h : (Dict.keys d).Nodup) (k : Str) : lastWrite d k = Dict.get? d k := by
  induction d with
  | nil => rfl
  | cons x d ih =>
    have hd : x.1 ∉ Dict.keys d ∧ (Dict.keys d).Nodup := List.nodup_cons.1 h
    obtain ⟨k', v⟩ := x
    rw [lastWrite, ih hd.2, Dict.get?]
    by_cases hk : k' = k
    · subst hk
      have : Dict.get? d k' = none := by
        cases hg : Dict.get? d k' with
        | none => rfl
        | some v => exact absurd (Dict.mem_keys_of_get? hg) hd.1
      rw [this, if_pos rfl]
    · rw [if_neg hk, if_neg hk]
      cases Dict.get? d k <;> rfl

theorem firstOccurrences_nodup : ∀ {l : List Str}, l.Nodup → firstOccurrences l = l
  | [], _ => rfl
  | k :: l, h => by
    have := List.nodup_cons.1 h
    rw [firstOccurrences, firstOccurrences_nodup this.2, List.filter_eq_self.2]
    intro x hx
    exact decide_eq_true fun e : x = k => this.1 (e ▸ hx)

theorem firstOccurrences_without (k : Str) (l : List Str) : (firstOccurrences l).filter (fun x => decide (x ≠ k)) =
    firstOccurrences (l.filter fun x => decide (x ≠ k)) := by
  induction l with
  | nil => rfl
  | cons y l ih =>
    rw [firstOccurrences]
    by_cases hy : y = k
    · subst hy
      rw [List.filter_cons, if_neg (by simp), List.filter_filter]
      simp only [Bool.and_self]
      rw [ih, List.filter_cons, if_neg (by simp)]
    · rw [List.filter_cons, if_pos (by simpa using hy), List.filter_cons, if_pos (by simpa using hy),
        firstOccurrences, ← ih, List.filter_filter, List.filter_filter]
      congr 1
      exact List.filter_congr fun z _ => Bool.and_comm _ _

theorem firstOccurrences_prefix : ∀ {a b : List Str}, b.Nodup → a <+: b → firstOccurrences (a ++ b) = b
  | [], b, hb, _ => firstOccurrences_nodup hb
  | k :: a, b, hb, h => by
    obtain ⟨t, rfl⟩ := h
    have h' : k ∉ a ++ t ∧ (a ++ t).Nodup := List.nodup_cons.1 hb
    have no : ∀ m : List Str, k ∉ m → m.filter (fun x => decide (x ≠ k)) = m := fun m hm =>
      List.filter_eq_self.2 fun x hx => decide_eq_true fun e : x = k => hm (e ▸ hx)
    rw [List.cons_append, firstOccurrences, List.cons_append, firstOccurrences_without, List.filter_append,
      List.filter_cons, if_neg (by simp), no a (fun hx => h'.1 (List.mem_append_left _ hx)), no _ h'.1,
      firstOccurrences_prefix h'.2 (List.prefix_append a t)]

theorem stores_two (h1 h2 : Handler Unit Unit) (c1 c2 : HCall) (s0 s : Str) (a b : Options) :
    stores ([Ev.call h1 c1] ++ (Ev.visit s0 :: a.map fun kv => .store kv.1 kv.2) ++
      (Ev.visit s :: b.map fun kv => .store kv.1 kv.2) ++ [Ev.call h2 c2]) = a ++ b := by
  rw [stores_append, stores_append, stores_append]
  simp only [stores, List.nil_append, List.append_nil]
  rw [stores_map, stores_map]

/-- The trace of a section of the rendered text. -/
theorem Resolvable.trace (h : Resolvable c bs) {b : Str × Options} (hb : b ∈ bs) (l : Nat) :
    ∃ evs, ParseTrace (baseEnv (plainCfg bs) l) b.1 true true evs ∧ (∀ x ∈ evs, ∀ e, ¬ Fault x e) ∧
      LastWins (stores evs) (fillIn b.2) := by
  have hnd : (Dict.keys (fillIn b.2)).Nodup := by rw [fillIn_keys]; exact resolved_nodup (h.resolved b hb)
  have noFault : ∀ (s : Str) (d : Options), ∀ x ∈ (Ev.visit s :: d.map fun kv => .store kv.1 kv.2 : List (Ev Unit Unit)),
      ∀ e, ¬ Fault x e := by
    intro s d x hx e hf
    rcases List.mem_cons.1 hx with rfl | hx
    · cases hf
    · obtain ⟨kv, _, rfl⟩ := List.mem_map.1 hx
      cases hf
  have hasEq : (baseEnv (plainCfg bs) l).cfg.hasSection (baseEnv (plainCfg bs) l).defaultName =
      (baseEnv c 0).cfg.hasSection (baseEnv c 0).defaultName := by
    have : ∀ s, (plainCfg bs).hasSection s = c.hasSection s := by
      intro s
      rw [Bool.eq_iff_iff, Cfg.hasSection, Cfg.hasSection, Dict.mem_iff, Dict.mem_iff]
      exact Iff.of_eq (congrArg (s ∈ ·) ((plainCfg_names bs).trans h.names))
    exact this _
  by_cases hd : (baseEnv (plainCfg bs) l).cfg.hasSection (baseEnv (plainCfg bs) l).defaultName = true
  · have hm : (baseEnv (plainCfg bs) l).defaultName ∈ bs.map Prod.fst := by
      rw [← plainCfg_names]
      exact (Dict.mem_iff _ _).1 hd
    obtain ⟨b0, hb0, e0⟩ := List.mem_map.1 hm
    refine ⟨_, .mk (evD := .visit b0.1 :: (fillIn b0.2).map fun kv => .store kv.1 kv.2) (fun _ => ?_)
      (fun hx => absurd ⟨rfl, hd⟩ hx) (h.unrolls hb l b.1), ?_, ?_⟩
    · rw [← e0]; exact h.unrolls hb0 l b.1
    · intro x hx e hf
      rcases List.mem_append.1 hx with hx | hx
      · rcases List.mem_append.1 hx with hx | hx
        · rcases List.mem_append.1 hx with hx | hx
          · cases List.mem_singleton.1 hx; cases hf
          · exact noFault _ _ x hx e hf
        · exact noFault _ _ x hx e hf
      · cases List.mem_singleton.1 hx; cases hf
    · rw [if_pos rfl, if_pos rfl, stores_two]
      have hp : Dict.keys b0.2 <+: Dict.keys b.2 :=
        resolved_default (hasEq ▸ hd) (h.resolved b hb) (by
          have := h.resolved b0 hb0
          rw [e0] at this
          exact this)
      have hnd0 : (Dict.keys (fillIn b0.2)).Nodup := by rw [fillIn_keys]; exact resolved_nodup (h.resolved b0 hb0)
      refine ⟨?_, ?_⟩
      · rw [List.map_append]
        refine Eq.symm (firstOccurrences_prefix (b := Dict.keys (fillIn b.2)) hnd ?_)
        show Dict.keys (fillIn b0.2) <+: _
        rw [fillIn_keys, fillIn_keys]; exact hp
      · intro k
        rw [lastWrite_append, lastWrite_nodup hnd, lastWrite_nodup hnd0]
        cases hk : Dict.get? (fillIn b.2) k with
        | some v => rfl
        | none =>
          cases hk0 : Dict.get? (fillIn b0.2) k with
          | none => rfl
          | some v =>
            have h1 : k ∈ Dict.keys (fillIn b0.2) := Dict.mem_keys_of_get? hk0
            rw [fillIn_keys] at h1
            have h2 : k ∈ Dict.keys (fillIn b.2) := by rw [fillIn_keys]; exact hp.subset h1
            have h3 := (Dict.get?_isSome_iff _ _).2 h2
            rw [hk] at h3; cases h3
  · refine ⟨_, .mk (evD := []) (fun hx => absurd hx.2 hd) (fun _ => rfl) (h.unrolls hb l b.1), ?_, ?_⟩
    · intro x hx e hf
      rcases List.mem_append.1 hx with hx | hx
      · rcases List.mem_append.1 hx with hx | hx
        · cases List.mem_singleton.1 (by simpa using hx); cases hf
        · exact noFault _ _ x hx e hf
      · cases List.mem_singleton.1 hx; cases hf
    · have e : stores ((if true = true then [Ev.call (baseEnv (plainCfg bs) l).hookInit (hookCall b.1 py!"handler_initialize")] else []) ++ [] ++
          (Ev.visit b.1 :: (fillIn b.2).map fun kv => .store kv.1 kv.2) ++
          (if true = true then [Ev.call (baseEnv (plainCfg bs) l).hookFinal (hookCall b.1 py!"handler_finalize")] else [])) = fillIn b.2 := by
        rw [if_pos rfl, if_pos rfl, stores_append, stores_append, stores_append]
        simp only [stores, List.nil_append, List.append_nil]
        exact stores_map _
      rw [e]
      exact ⟨(firstOccurrences_nodup hnd).symm, fun k => (lastWrite_nodup hnd k).symm⟩

theorem Resolvable.noLinks (h : Resolvable c bs) (l : Nat) (s t : Str) : ¬ Links (baseEnv (plainCfg bs) l) s t := by
  rintro ⟨keys, k, hk, hmem, hl⟩
  by_cases hs : s ∈ bs.map Prod.fst
  · obtain ⟨b, hb, rfl⟩ := List.mem_map.1 hs
    have e : keys = Dict.keys b.2 := Option.some.inj (hk.symm.trans (h.options hb))
    rw [e] at hmem
    obtain ⟨kv, hkv, rfl⟩ := List.mem_map.1 hmem
    rw [h.means hb hkv] at hl
    cases hl
  · by_cases hc : s = (plainCfg bs).commonName
    · have e : some keys = some [] := hk.symm.trans (by
        show (plainCfg bs).optionNames s = _
        unfold Cfg.optionNames
        rw [if_pos hc]; rfl)
      cases Option.some.inj e
      cases hmem
    · have : (plainCfg bs).optionNames s = none := by
        unfold Cfg.optionNames
        rw [if_neg hc]
        cases hg : Dict.get? (plainCfg bs).sections s with
        | none => rfl
        | some d =>
          have := Dict.mem_keys_of_get? hg
          exact absurd (plainCfg_names bs ▸ this) hs
      cases hk.symm.trans this

theorem Resolvable.reaches (h : Resolvable c bs) {l : Nat} {s t : Str} (hr : Reaches (baseEnv (plainCfg bs) l) s t) : t = s := by
  cases hr with
  | refl => rfl
  | step hl _ => exact absurd hl (h.noLinks l _ _)

end
end CPE
