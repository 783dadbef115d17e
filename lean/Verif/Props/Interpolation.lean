import Verif.Spec.Interpolation
import Verif.Model.Config
import Verif.Proofs.Base
/-
C39: value interpolation.
-/
namespace CPE.Props
open Spec Cfg
variable {look : Str → Option (Option Str)}

/-! ### scanning is unambiguous -/

theorem takeWhile_name {name : Str} (h : ')' ∉ name) (s : Str) :
    (name ++ ')' :: s).takeWhile (· ≠ ')') = name ∧ (name ++ ')' :: s).dropWhile (· ≠ ')') = ')' :: s := by
  induction name with
  | nil => simp
  | cons c name ih =>
    simp only [List.mem_cons, not_or] at h
    have hc : c ≠ ')' := fun e => h.1 e.symm
    obtain ⟨h1, h2⟩ := ih h.2
    have hd : decide (c ≠ ')') = true := decide_eq_true hc
    rw [List.cons_append, List.takeWhile_cons, List.dropWhile_cons, if_pos hd, if_pos hd, h1, h2]
    exact ⟨rfl, rfl⟩

theorem matchKey_iff (s name rest : Str) :
    matchKey s = some (name, rest) ↔ s = name ++ ')' :: 's' :: rest ∧ name ≠ [] ∧ ')' ∉ name := by
  constructor
  · intro h
    unfold matchKey at h
    have hsplit := List.takeWhile_append_dropWhile (p := (· ≠ ')')) (l := s)
    split at h
    · rename_i r hd
      dsimp only at h
      split at h
      · cases h
      · rename_i hne
        cases h
        refine ⟨by rw [← hd, hsplit], hne, ?_⟩
        intro hm
        have := List.all_takeWhile (p := fun c => decide (c ≠ ')')) (l := s)
        rw [List.all_eq_true] at this
        simpa using this ')' hm
    · cases h
  · rintro ⟨rfl, h1, h2⟩
    obtain ⟨h3, h4⟩ := takeWhile_name h2 ('s' :: rest)
    unfold matchKey
    rw [h4, h3]
    exact if_neg h1

theorem scans_det {v : Str} {a b : List Item} (ha : Scans v a) (hb : Scans v b) : a = b := by
  induction ha generalizing b with
  | nil => cases hb; rfl
  | char hc _ ih =>
    cases hb with
    | char _ h => rw [ih h]
    | percent h => exact absurd rfl hc
    | ref _ _ h => exact absurd rfl hc
  | percent _ ih =>
    generalize hv : ('%' :: '%' :: _ : Str) = v at hb
    cases hb with
    | nil => cases hv
    | char hc h => cases hv; exact absurd rfl hc
    | percent h => cases hv; rw [ih h]
    | ref _ _ h => simp at hv
  | @ref name s is h1 h2 _ ih =>
    generalize hv : ('%' :: '(' :: name ++ ')' :: 's' :: s : Str) = v at hb
    cases hb with
    | nil => cases hv
    | char hc h => cases hv; exact absurd rfl hc
    | percent h => simp at hv
    | @ref name' s' is' h1' h2' h =>
      have e : name ++ ')' :: 's' :: s = name' ++ ')' :: 's' :: s' := by
        simp only [List.cons_append, List.cons.injEq, true_and] at hv
        exact hv
      have k1 := (matchKey_iff _ name s).mpr ⟨rfl, h1, h2⟩
      have k2 := (matchKey_iff _ name' s').mpr ⟨e, h1', h2'⟩
      rw [k1] at k2
      cases k2
      rw [ih h]

/-! ### the loop follows the grammar -/

theorem fmap_ok_iff {f : Str → Str} {x : Except PyExc Str} {r : Str} : f <$> x = .ok r ↔ ∃ y, x = .ok y ∧ r = f y := by
  cases x with
  | error e => exact ⟨(fun h => by cases h), fun ⟨y, h, _⟩ => by cases h⟩
  | ok y => exact ⟨fun h => ⟨y, rfl, by cases h; rfl⟩, fun ⟨z, h, hr⟩ => by cases h; rw [hr]; rfl⟩

theorem loop_iff (nested : Str → Except PyExc Str) (rel : Str → Str → Prop) (hn : ∀ u u', nested u = .ok u' ↔ rel u u') :
    ∀ (n : Nat) (v : Str), v.length ≤ n → ∀ r, interpLoop look nested n v = .ok r ↔
      ∃ items, Scans v items ∧ Delivers look rel items r := by
  intro n
  induction n with
  | zero =>
    intro v hv r
    have : v = [] := by simpa using hv
    subst this
    constructor
    · intro h; cases h; exact ⟨[], .nil, .nil⟩
    · rintro ⟨items, h1, h2⟩
      cases h1
      cases h2
      rfl
  | succ n ih =>
    intro v hv r
    cases v with
    | nil =>
      constructor
      · intro h; cases h; exact ⟨[], .nil, .nil⟩
      · rintro ⟨items, h1, h2⟩
        cases h1
        cases h2
        rfl
    | cons c v =>
      have hv' : v.length ≤ n := by simpa using hv
      by_cases hc : c = '%'
      · subst hc
        cases v with
        | nil =>
          constructor
          · intro h; simp [interpLoop] at h
          · rintro ⟨items, h1, -⟩
            cases h1 with
            | char h => exact absurd rfl h
        | cons d v =>
          have hl : v.length ≤ n := by simp at hv'; omega
          by_cases hd : d = '%'
          · subst hd
            simp only [interpLoop, ne_eq, not_true_eq_false, if_false]
            rw [fmap_ok_iff]
            constructor
            · rintro ⟨y, h1, rfl⟩
              obtain ⟨items, h2, h3⟩ := (ih v hl y).mp h1
              exact ⟨.percent :: items, .percent h2, .percent h3⟩
            · rintro ⟨items, h1, h2⟩
              cases h1 with
              | char h => exact absurd rfl h
              | percent h1 =>
                cases h2 with
                | percent h2 => exact ⟨_, (ih v hl _).mpr ⟨_, h1, h2⟩, rfl⟩
          · by_cases hp : d = '('
            · subst hp
              simp only [interpLoop, ne_eq, not_true_eq_false, if_false]
              cases hm : matchKey v with
              | none =>
                refine ⟨(fun h => by simp at h), ?_⟩
                rintro ⟨items, h1, -⟩
                generalize hw : ('%' :: '(' :: v : Str) = w at h1
                cases h1 with
                | nil => cases hw
                | char h _ => cases hw; exact absurd rfl h
                | percent _ => simp at hw
                | @ref name s is h1 h2 h3 =>
                  simp only [List.cons_append, List.cons.injEq, true_and] at hw
                  rw [(matchKey_iff v name s).mpr ⟨hw, h1, h2⟩] at hm
                  cases hm
              | some p =>
                obtain ⟨name, rest⟩ := p
                obtain ⟨rfl, hne, hnm⟩ := (matchKey_iff v name rest).mp hm
                have hlr : rest.length ≤ n := by simp at hl; omega
                have inv : ∀ items, Scans ('%' :: '(' :: (name ++ ')' :: 's' :: rest)) items →
                    ∃ is, items = .ref name :: is ∧ Scans rest is := by
                  intro items h1
                  have htot : ∀ is, Scans rest is → items = .ref name :: is :=
                    fun is h => scans_det h1 (Scans.ref hne hnm h)
                  generalize hw : ('%' :: '(' :: (name ++ ')' :: 's' :: rest) : Str) = w at h1
                  cases h1 with
                  | nil => cases hw
                  | char h _ => cases hw; exact absurd rfl h
                  | percent _ => simp at hw
                  | @ref name' s is h1 h2 h3 =>
                    simp only [List.cons_append, List.cons.injEq, true_and] at hw
                    have k := (matchKey_iff _ name' s).mpr ⟨hw, h1, h2⟩
                    rw [hm] at k
                    cases k
                    exact ⟨is, rfl, h3⟩
                dsimp only
                cases hlook : look name with
                | none =>
                  refine ⟨(fun h => by simp at h), ?_⟩
                  rintro ⟨items, h1, h2⟩
                  obtain ⟨is, rfl, -⟩ := inv items h1
                  cases h2 with
                  | plain hx => rw [hlook] at hx; cases hx
                  | nested hx => rw [hlook] at hx; cases hx
                | some o =>
                  cases o with
                  | none =>
                    refine ⟨(fun h => by simp at h), ?_⟩
                    rintro ⟨items, h1, h2⟩
                    obtain ⟨is, rfl, -⟩ := inv items h1
                    cases h2 with
                    | plain hx => rw [hlook] at hx; cases hx
                    | nested hx => rw [hlook] at hx; cases hx
                  | some u =>
                    dsimp only
                    by_cases hu : '%' ∈ u
                    · rw [if_pos hu]
                      constructor
                      · intro h
                        cases hnu : nested u with
                        | error e => rw [hnu] at h; cases h
                        | ok u' =>
                          rw [hnu] at h
                          obtain ⟨y, h1, rfl⟩ := fmap_ok_iff.mp h
                          obtain ⟨items, h2, h3⟩ := (ih rest hlr y).mp h1
                          exact ⟨.ref name :: items, .ref hne hnm h2, .nested hlook hu ((hn u u').mp hnu) h3⟩
                      · rintro ⟨items, h1, h2⟩
                        obtain ⟨is, rfl, h3⟩ := inv items h1
                        cases h2 with
                        | plain hx hp => rw [hlook] at hx; cases hx; exact absurd hu hp
                        | @nested _ _ u' _ r hx _ hrel h4 =>
                          rw [hlook] at hx; cases hx
                          rw [(hn u u').mpr hrel]
                          exact fmap_ok_iff.mpr ⟨_, (ih rest hlr _).mpr ⟨is, h3, h4⟩, rfl⟩
                    · rw [if_neg hu]
                      constructor
                      · intro h
                        obtain ⟨y, h1, rfl⟩ := fmap_ok_iff.mp h
                        obtain ⟨items, h2, h3⟩ := (ih rest hlr y).mp h1
                        exact ⟨.ref name :: items, .ref hne hnm h2, .plain hlook hu h3⟩
                      · rintro ⟨items, h1, h2⟩
                        obtain ⟨is, rfl, h3⟩ := inv items h1
                        cases h2 with
                        | plain hx hp h4 =>
                          rw [hlook] at hx; cases hx
                          exact fmap_ok_iff.mpr ⟨_, (ih rest hlr _).mpr ⟨is, h3, h4⟩, rfl⟩
                        | nested hx hp => rw [hlook] at hx; cases hx; exact absurd hp hu
            · have hbad : interpLoop look nested (n + 1) ('%' :: d :: v) = .error .interpolationSyntax := by
                unfold interpLoop
                simp only [ne_eq, not_true_eq_false, if_false]
                split
                · rename_i heq; cases heq; exact absurd rfl hd
                · rename_i heq; cases heq; exact absurd rfl hp
                · rfl
              rw [hbad]
              refine ⟨(fun h => by cases h), ?_⟩
              rintro ⟨items, h1, -⟩
              generalize hw : ('%' :: d :: v : Str) = w at h1
              cases h1 with
              | nil => cases hw
              | char h _ => cases hw; exact absurd rfl h
              | percent _ => cases hw; exact absurd rfl hd
              | ref _ _ _ => simp at hw; exact absurd hw.1 hp
      · unfold interpLoop
        rw [if_pos hc, fmap_ok_iff]
        constructor
        · rintro ⟨y, h1, rfl⟩
          obtain ⟨items, h2, h3⟩ := (ih v hv' y).mp h1
          exact ⟨.char c :: items, .char hc h2, .char h3⟩
        · rintro ⟨items, h1, h2⟩
          cases h1 with
          | char _ h1 =>
            cases h2 with
            | char h2 => exact ⟨_, (ih v hv' _).mpr ⟨_, h1, h2⟩, rfl⟩
          | percent => exact absurd rfl hc
          | ref => exact absurd rfl hc

theorem interpSome_iff (d : Nat) (v r : Str) : interpSome look d v = .ok r ↔ Expands look d v r := by
  induction d generalizing v r with
  | zero => exact ⟨(fun h => by cases h), fun h => h.elim⟩
  | succ d ih => exact loop_iff (interpSome look d) (Expands look d) ih v.length v (Nat.le_refl _) r

/-- C39: `parser[section][key]` of a text value `v` is what the grammar says, with at most ten levels of references;
an option without value stays None; a key that is in neither the section nor the common section raises KeyError. -/
theorem C39_value_iff (c : Cfg) (s k : Str) (r : Option Str) :
    c.value s k = .ok r ↔ (c.rawValue s k = some none ∧ r = none) ∨
      ∃ v x, c.rawValue s k = some (some v) ∧ r = some x ∧ Expands (c.rawValue s) 10 v x := by
  unfold Cfg.value
  cases hr : c.rawValue s k with
  | none => simp
  | some o =>
    cases o with
    | none => simp [eq_comm]
    | some v =>
      dsimp only
      cases hi : interpolate (c.rawValue s) v with
      | error e =>
        refine ⟨(fun h => by simp at h), ?_⟩
        rintro (⟨h, -⟩ | ⟨v', x, h, -, hx⟩)
        · cases h
        · cases h
          have := (interpSome_iff 10 v x).mpr hx
          unfold interpolate at hi
          rw [this] at hi; cases hi
      | ok x =>
        have hx := (interpSome_iff (look := c.rawValue s) 10 v x).mp hi
        constructor
        · intro h; cases h; exact .inr ⟨v, x, rfl, rfl, hx⟩
        · rintro (⟨h, -⟩ | ⟨v', x', h, rfl, hx'⟩)
          · cases h
          · cases h
            have := (interpSome_iff 10 v x').mpr hx'
            unfold interpolate at hi
            rw [this] at hi; cases hi; rfl

/-- C39: the value of a key is looked up in the section first, and in the common section if the section does not
define it. -/
theorem C39_lookup_order (c : Cfg) (s k : Str) (hs : s ≠ c.commonName) (os : Dict Str (Option Str))
    (ho : Dict.get? c.sections s = some os) :
    c.rawValue s k = match Dict.get? os k with
      | some v => some v
      | none => Dict.get? c.common k := by
  unfold Cfg.rawValue
  rw [if_neg hs, ho]
  rfl

/-- C39: the keys of `parser[section]` are the section's own in file order, then those of the common section that
the section does not define, in file order; each key once. -/
theorem C39_option_order (c : Cfg) (s : Str) (hs : s ≠ c.commonName) (os : Dict Str (Option Str))
    (ho : Dict.get? c.sections s = some os) (hd : (Dict.keys os).Nodup) (hc : (Dict.keys c.common).Nodup) :
    ∃ extra, c.optionNames s = some (Dict.keys os ++ extra) ∧ extra.Sublist (Dict.keys c.common) ∧
      (∀ k, k ∈ extra ↔ k ∈ Dict.keys c.common ∧ k ∉ Dict.keys os) ∧ (Dict.keys os ++ extra).Nodup := by
  have hmem : ∀ k, k ∈ (Dict.keys c.common).filter (fun k => !Dict.mem os k) ↔ k ∈ Dict.keys c.common ∧ k ∉ Dict.keys os := by
    intro k
    rw [List.mem_filter]
    have : (!Dict.mem os k) = true ↔ k ∉ Dict.keys os := by
      rw [← Dict.mem_iff]; simp
    rw [this]
  refine ⟨_, by unfold Cfg.optionNames; rw [if_neg hs, ho], List.filter_sublist, hmem, ?_⟩
  rw [List.nodup_append]
  refine ⟨hd, hc.filter _, ?_⟩
  intro a ha b hb hab
  subst hab
  exact ((hmem a).mp hb).2 ha

/-- C39: a section the file does not have cannot be read. -/
theorem C39_no_section (c : Cfg) (s : Str) (hs : s ≠ c.commonName) (ho : Dict.get? c.sections s = none) :
    c.optionNames s = none := by
  unfold Cfg.optionNames
  rw [if_neg hs, ho]

/-- C39: a value without `%` is delivered as it is. -/
theorem C39_plain (c : Cfg) (s k v : Str) (hr : c.rawValue s k = some (some v)) (hv : '%' ∉ v) :
    c.value s k = .ok (some v) := by
  rw [C39_value_iff]
  refine .inr ⟨v, v, hr, rfl, ?_⟩
  clear hr
  have : ∀ v : Str, '%' ∉ v → Scans v (v.map .char) ∧ Delivers (c.rawValue s) (Expands (c.rawValue s) 9) (v.map .char) v := by
    intro v
    induction v with
    | nil => intro _; exact ⟨.nil, .nil⟩
    | cons a v ih =>
      intro h
      simp only [List.mem_cons, not_or] at h
      obtain ⟨h1, h2⟩ := ih h.2
      exact ⟨.char (Ne.symm h.1) h1, .char h2⟩
  exact ⟨_, this v hv⟩

/-- C39: `%%` in front of a value is delivered as one `%`. -/
theorem C39_percent (d : Nat) (v r : Str) : Expands look (d + 1) ('%' :: '%' :: v) r ↔
    ∃ x, r = '%' :: x ∧ Expands look (d + 1) v x := by
  constructor
  · rintro ⟨items, h1, h2⟩
    cases h1 with
    | char h => exact absurd rfl h
    | percent h1 =>
      cases h2 with
      | percent h2 => exact ⟨_, rfl, _, h1, h2⟩
  · rintro ⟨x, rfl, items, h1, h2⟩
    exact ⟨_, .percent h1, .percent h2⟩

/-- Doubling every `%` protects a text from interpolation. -/
theorem C39_escape_roundtrip (c : Cfg) (s k v : Str)
    (hr : c.rawValue s k = some (some (v.flatMap fun a => if a = '%' then ['%', '%'] else [a]))) :
    c.value s k = .ok (some v) := by
  rw [C39_value_iff]
  refine .inr ⟨_, v, hr, rfl, ?_⟩
  clear hr
  have : ∀ v : Str, ∃ items, Scans (v.flatMap fun a => if a = '%' then ['%', '%'] else [a]) items ∧
      Delivers (c.rawValue s) (Expands (c.rawValue s) 9) items v := by
    intro v
    induction v with
    | nil => exact ⟨[], .nil, .nil⟩
    | cons a v ih =>
      obtain ⟨items, h1, h2⟩ := ih
      rw [List.flatMap_cons]
      by_cases ha : a = '%'
      · subst ha
        exact ⟨.percent :: items, .percent h1, .percent h2⟩
      · rw [if_neg ha]
        exact ⟨.char a :: items, .char ha h1, .char h2⟩
  exact this v

theorem delivers_ref {rel : Str → Str → Prop} {items : List Item} {r : Str} (h : Delivers look rel items r) {name : Str}
    (hm : .ref name ∈ items) : ∃ u, look name = some (some u) ∧ ('%' ∉ u ∨ ∃ u', rel u u') := by
  induction h with
  | nil => cases hm
  | char _ ih =>
    rcases List.mem_cons.mp hm with h | h
    · cases h
    · exact ih h
  | percent _ ih =>
    rcases List.mem_cons.mp hm with h | h
    · cases h
    · exact ih h
  | plain h1 h2 _ ih =>
    rcases List.mem_cons.mp hm with h | h
    · cases h; exact ⟨_, h1, .inl h2⟩
    · exact ih h
  | nested h1 h2 h3 _ ih =>
    rcases List.mem_cons.mp hm with h | h
    · cases h; exact ⟨_, h1, .inr ⟨_, h3⟩⟩
    · exact ih h

theorem scans_ref_percent {v : Str} {items : List Item} (h : Scans v items) {name : Str} (hm : .ref name ∈ items) : '%' ∈ v := by
  induction h with
  | nil => cases hm
  | char _ _ ih =>
    rcases List.mem_cons.mp hm with h | h
    · cases h
    · exact .tail _ (ih h)
  | percent _ _ => exact .head _
  | ref _ _ _ _ => exact .head _

theorem chain_trans {a b c : Str} (h1 : Chain look a b) (h2 : Chain look b c) : Chain look a c := by
  induction h1 with
  | one h => exact .more h h2
  | more h _ ih => exact .more h (ih h2)

/-- C39: a value that refers to an option which leads back to itself, directly or through others, is never
delivered: the read raises instead of looping. -/
theorem C39_circular_reference_raises (c : Cfg) (s k v name : Str) (items : List Item)
    (hr : c.rawValue s k = some (some v)) (hv : Scans v items) (hm : .ref name ∈ items)
    (hc : Chain (c.rawValue s) name name) : ∃ e, c.value s k = .error e := by
  have key : ∀ d name u, Chain (c.rawValue s) name name → c.rawValue s name = some (some u) → ∀ r, ¬ Expands (c.rawValue s) d u r := by
    intro d
    induction d with
    | zero => intro _ _ _ _ _ h; exact h
    | succ d ih =>
      intro name u hch hu r hexp
      obtain ⟨is, hs, hd⟩ := hexp
      have step : ∀ b, RefersTo (c.rawValue s) name b → Chain (c.rawValue s) b b → False := by
        rintro b ⟨u', is', h1, h2, h3⟩ hbb
        rw [hu] at h1
        cases h1
        have := scans_det hs h2
        subst this
        obtain ⟨w, hw1, hw2⟩ := delivers_ref hd h3
        rcases hw2 with hw2 | ⟨w', hw2⟩
        · have hww : '%' ∈ w := by
            cases hbb with
            | one h =>
              obtain ⟨w'', is'', k1, k2, k3⟩ := h
              rw [hw1] at k1; cases k1
              exact scans_ref_percent k2 k3
            | more h _ =>
              obtain ⟨w'', is'', k1, k2, k3⟩ := h
              rw [hw1] at k1; cases k1
              exact scans_ref_percent k2 k3
          exact hw2 hww
        · exact ih b w hbb hw1 w' hw2
      cases hch with
      | one h => exact step name h (.one h)
      | more h h' => exact step _ h (chain_trans h' (.one h))
  cases hval : c.value s k with
  | error e => exact ⟨e, rfl⟩
  | ok r =>
    exfalso
    rw [C39_value_iff] at hval
    rcases hval with ⟨h, -⟩ | ⟨v', x, h, -, hx⟩
    · rw [hr] at h; cases h
    · rw [hr] at h; cases h
      obtain ⟨is, hs, hd⟩ := hx
      have := scans_det hv hs
      subst this
      obtain ⟨u, hu1, hu2⟩ := delivers_ref hd hm
      rcases hu2 with hu2 | ⟨u', hu2⟩
      · have : '%' ∈ u := by
          cases hc with
          | one h =>
            obtain ⟨w'', is'', k1, k2, k3⟩ := h
            rw [hu1] at k1; cases k1
            exact scans_ref_percent k2 k3
          | more h _ =>
            obtain ⟨w'', is'', k1, k2, k3⟩ := h
            rw [hu1] at k1; cases k1
            exact scans_ref_percent k2 k3
        exact hu2 this
      · exact key _ name u hc hu1 u' hu2

/-- A file with a common section and references. -/
def cfgRefs : Cfg where
  sections := [(py!"S", [(py!"dir", some py!"%(root)s/lib"), (py!"pct", some py!"100%%"), (py!"a", some py!"%(b)s"),
    (py!"b", some py!"x%(a)s"), (py!"path", some py!"-I%(dir)s"), (py!"bad", some py!"50%"), (py!"none", none)])]
  common := [(py!"root", some py!"/opt")]

example : cfgRefs.value py!"S" py!"path" = .ok (some py!"-I/opt/lib") ∧
    cfgRefs.value py!"S" py!"pct" = .ok (some py!"100%") ∧
    cfgRefs.value py!"S" py!"none" = .ok none ∧
    cfgRefs.value py!"S" py!"a" = .error .interpolationDepth ∧
    cfgRefs.value py!"S" py!"bad" = .error .interpolationSyntax := by decide +kernel

example : Chain (cfgRefs.rawValue py!"S") py!"a" py!"a" :=
  .more ⟨py!"%(b)s", _, rfl, .ref (name := py!"b") (by decide) (by decide) .nil, .head _⟩
    (.one ⟨py!"x%(a)s", _, rfl, .char (by decide) (.ref (name := py!"a") (by decide) (by decide) .nil), .tail _ (.head _)⟩)

end CPE.Props
