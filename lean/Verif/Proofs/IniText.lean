import Verif.Model.IniText
import Verif.Spec.IniDoc
import Verif.Proofs.Base
import Verif.Props.Dispatch
/-
The text reader on the lines of a document.
-/
namespace CPE
open Spec

/-! ### Characters and lines -/

theorem white_space {c : Char} (h : White c) : isSpace c = true := (Props.isSpace_iff c).2 h
theorem not_white_space {c : Char} (h : ¬ White c) : isSpace c = false := by
  cases h' : isSpace c with
  | false => rfl
  | true => exact absurd ((Props.isSpace_iff c).1 h') h

theorem white_nl : isSpace '\n' = true := by decide
theorem hash_not_space : isSpace '#' = false := by decide
theorem semi_not_space : isSpace ';' = false := by decide
theorem open_not_space : isSpace '[' = false := by decide

theorem strip_padded {w t e : Str} (hw : Blanks w) (ht : Tight t) (he : Blanks e) : strip (w ++ t ++ e) = t :=
  stripBy_unique rfl (fun c hc => white_space (hw c hc).1) (fun c hc => white_space (he c hc).1)
    (fun c hc => not_white_space (ht.1 c hc)) (fun c hc => not_white_space (ht.2 c hc))

theorem strip_tight {t : Str} (ht : Tight t) : strip t = t :=
  stripBy_eq_self (fun c hc => not_white_space (ht.1 c hc)) (fun c hc => not_white_space (ht.2 c hc))

theorem rstrip_tight {t : Str} (ht : Tight t) : rstrip t = t :=
  rstripBy_eq_self (fun c hc => not_white_space (ht.2 c hc))

theorem strip_blanks {w : Str} (hw : Blanks w) : strip w = [] := by
  have := strip_padded (t := []) hw ⟨fun c hc => by simp at hc, fun c hc => by simp at hc⟩ (e := [])
    (fun c hc => by simp at hc)
  simpa using this

/-- Indentation. -/
theorem takeWhile_padded {w t : Str} (hw : Blanks w) (ht : ∀ c, t.head? = some c → ¬ White c) :
    (w ++ t).takeWhile isSpace = w := by
  rw [List.takeWhile_append_of_pos fun c hc => white_space (hw c hc).1]
  cases t with
  | nil => simp
  | cons a t => rw [List.takeWhile_cons, if_neg]; simp; simp [not_white_space (ht a rfl)]

theorem linesOf_append {l : Str} (hl : '\n' ∉ l) (t : Str) : linesOf (l ++ '\n' :: t) = l :: linesOf t := by
  induction l with
  | nil => rw [List.nil_append, linesOf]
  | cons c l ih =>
    have hc : c ≠ '\n' := by rintro rfl; exact hl (List.mem_cons_self ..)
    have hl' : '\n' ∉ l := fun h => hl (List.mem_cons_of_mem _ h)
    rw [List.cons_append, linesOf, ih hl']
    exact hc

theorem linesOf_last {l : Str} (hl : '\n' ∉ l) (hne : l ≠ []) : linesOf l = [l] := by
  induction l with
  | nil => exact absurd rfl hne
  | cons c l ih =>
    have hc : c ≠ '\n' := by rintro rfl; exact hl (List.mem_cons_self ..)
    have hl' : '\n' ∉ l := fun h => hl (List.mem_cons_of_mem _ h)
    rw [linesOf]
    · cases l with
      | nil => rfl
      | cons a l => rw [ih hl' (by simp)]
    · exact hc

theorem universalNewlines_append {l : Str} (hl : '\r' ∉ l) (t : Str) :
    universalNewlines (l ++ t) = l ++ universalNewlines t := by
  induction l with
  | nil => rfl
  | cons c l ih =>
    have hc : c ≠ '\r' := by rintro rfl; exact hl (List.mem_cons_self ..)
    have hl' : '\r' ∉ l := fun h => hl (List.mem_cons_of_mem _ h)
    rw [List.cons_append, universalNewlines, ih hl', List.cons_append]
    · intro cs h; exact absurd h hc
    · exact hc

theorem universalNewlines_self {l : Str} (hl : '\r' ∉ l) : universalNewlines l = l := by
  have := universalNewlines_append hl []
  simpa [universalNewlines] using this

/-- The lines the reader sees. -/
theorem linesOf_text {ls : List Str} {t : Str} (h : LinesOf ls t) (hl : ∀ l ∈ ls, OneLine l) :
    linesOf (universalNewlines t) = ls := by
  induction h with
  | nil => rfl
  | last hne =>
    have := hl _ (List.mem_cons_self ..)
    rw [universalNewlines_self this.2, linesOf_last this.1 hne]
  | unix _ ih =>
    have h1 := hl _ (List.mem_cons_self ..)
    rw [universalNewlines_append h1.2, universalNewlines, linesOf_append h1.1,
      ih fun l h => hl l (List.mem_cons_of_mem _ h)]
    · intro cs h; simp at h
    · decide
  | dos _ ih =>
    have h1 := hl _ (List.mem_cons_self ..)
    rw [universalNewlines_append h1.2, universalNewlines, linesOf_append h1.1,
      ih fun l h => hl l (List.mem_cons_of_mem _ h)]

/-! ### Headers and options -/

theorem sectionHeader_of {name junk : Str} (hn : name ≠ []) (hj : ']' ∉ junk) :
    sectionHeader ('[' :: name ++ ']' :: junk) = some name := by
  have : (name ++ ']' :: junk).reverse.dropWhile (· ≠ ']') = ']' :: name.reverse := by
    rw [List.reverse_append, List.reverse_cons, List.append_assoc, List.dropWhile_append_of_pos]
    · rw [List.singleton_append, List.dropWhile_cons, if_neg]; simp
    · intro c hc
      have : c ≠ ']' := by rintro rfl; exact hj (by simpa using hc)
      simpa using this
  simp only [sectionHeader, List.cons_append, this]
  rw [if_neg (by simpa using hn), List.reverse_reverse]

theorem sectionHeader_other {s : Str} (h : s.head? ≠ some '[') : sectionHeader s = none := by
  unfold sectionHeader
  split
  · simp at h
  · rfl

theorem delimAt_single {ds : List Char} {c : Char} {s : Str} :
    delimAt (ds.map fun c => [c]) (c :: s) = if c ∈ ds then some s else none := by
  induction ds with
  | nil => simp [delimAt]
  | cons d ds ih =>
    rw [List.map_cons, delimAt, ih]
    by_cases hd : d = c
    · subst hd; simp [List.isPrefixOf?]
    · have : c ≠ d := fun h => hd h.symm
      have hb : (d == c) = false := by simpa using hd
      simp [List.isPrefixOf?, hb, this]

theorem delimAt_nil (ds : List Char) : delimAt (ds.map fun c => [c]) [] = none := by
  induction ds with
  | nil => rfl
  | cons d ds ih => rw [List.map_cons, delimAt, ih]; simp [List.isPrefixOf?]

theorem blanksDelim_inside {ds : List Char} : ∀ {x : Str} {s : Str}, x ≠ [] → (∀ c, x.getLast? = some c → ¬ White c) →
    (∀ c ∈ x, c ∉ ds) → blanksDelim (ds.map fun c => [c]) (x ++ s) = none
  | [], _, h, _, _ => absurd rfl h
  | c :: x, s, _, hlast, hfree => by
    rw [List.cons_append, blanksDelim]
    have hc : delimAt (ds.map fun c => [c]) (c :: (x ++ s)) = none := by
      rw [delimAt_single, if_neg (hfree c (List.mem_cons_self ..))]
    split
    · next hsp =>
      have hx : x ≠ [] := by
        rintro rfl
        exact hlast c rfl ((Props.isSpace_iff c).1 hsp)
      rw [blanksDelim_inside hx (fun c' h => hlast c' (by rw [List.getLast?_cons_of_ne_nil hx]; exact h))
        fun c' h => hfree c' (List.mem_cons_of_mem _ h), hc]
    · exact hc

theorem blanksDelim_at {ds : List Char} (hds : ∀ d ∈ ds, ¬ White d) {d : Char} (hd : d ∈ ds) (rest : Str) :
    ∀ {a : Str}, Blanks a → blanksDelim (ds.map fun c => [c]) (a ++ d :: rest) = some rest
  | [], _ => by
    rw [List.nil_append, blanksDelim, if_neg (by simp [not_white_space (hds d hd)]), delimAt_single, if_pos hd]
  | c :: a, ha => by
    rw [List.cons_append, blanksDelim, if_pos (white_space (ha c (List.mem_cons_self ..)).1),
      blanksDelim_at hds hd rest fun c' h => ha c' (List.mem_cons_of_mem _ h)]

theorem blanksDelim_nil (ds : List Char) : blanksDelim (ds.map fun c => [c]) [] = none := by
  rw [blanksDelim]; exact delimAt_nil ds

theorem splitOption_step {D : List Str} {c : Char} {s : Str} (h : blanksDelim D (c :: s) = none) :
    splitOption D (c :: s) = (c :: (splitOption D s).1, (splitOption D s).2) := by
  rw [splitOption.eq_def]
  simp only [h]

theorem splitOption_key {ds : List Char} {s k : Str} (hlast : ∀ c, k.getLast? = some c → ¬ White c)
    (hfree : ∀ c ∈ k, c ∉ ds) : splitOption (ds.map fun c => [c]) (k ++ s) =
      (k ++ (splitOption (ds.map fun c => [c]) s).1, (splitOption (ds.map fun c => [c]) s).2) := by
  induction k with
  | nil => rw [List.nil_append, List.nil_append]
  | cons c k ih =>
    have h1 := blanksDelim_inside (ds := ds) (x := c :: k) (s := s) (by simp) hlast hfree
    rw [List.cons_append] at h1
    rw [List.cons_append, List.cons_append, splitOption_step h1, ih ?_ fun c' h => hfree c' (List.mem_cons_of_mem _ h)]
    intro c' h
    cases k with
    | nil => simp at h
    | cons a k => exact hlast c' (by rw [List.getLast?_cons_of_ne_nil (by simp)]; exact h)

theorem splitOption_value {ds : List Char} (hds : ∀ d ∈ ds, ¬ White d) {k a : Str} (hk : GoodKey ds k) (ha : Blanks a)
    {d : Char} (hd : d ∈ ds) (rest : Str) :
    splitOption (ds.map fun c => [c]) (k ++ (a ++ d :: rest)) = (k, some (lstripBy isSpace rest)) := by
  rw [splitOption_key hk.tight.2 hk.free]
  have : splitOption (ds.map fun c => [c]) (a ++ d :: rest) = ([], some (lstripBy isSpace rest)) := by
    rw [splitOption.eq_def, blanksDelim_at hds hd rest ha]
  rw [this]; simp

theorem splitOption_bare {ds : List Char} {k : Str} (hk : GoodKey ds k) :
    splitOption (ds.map fun c => [c]) k = (k, none) := by
  have := splitOption_key (ds := ds) (s := []) hk.tight.2 hk.free
  rw [List.append_nil] at this
  rw [this]
  have h2 : splitOption (ds.map fun c => [c]) [] = ([], none) := by
    rw [splitOption.eq_def, blanksDelim_nil]
  rw [h2]; simp

/-- The value kept by the reader does not depend on how blanks are distributed. -/
theorem strip_lstrip (s : Str) : strip (lstripBy isSpace s) = strip s := by
  obtain ⟨a, h1, h2⟩ := lstripBy_split isSpace s
  obtain ⟨x, y, g1, g2, g3⟩ := stripBy_split isSpace (lstripBy isSpace s)
  refine (stripBy_unique (p := isSpace) (s := s) (a := a ++ x) (t := strip (lstripBy isSpace s)) (b := y) ?_ ?_ g3
    (fun c h => stripBy_head h) (fun c h => stripBy_last h)).symm
  · rw [List.append_assoc, List.append_assoc, ← List.append_assoc x]
    rw [← show lstripBy isSpace s = x ++ strip (lstripBy isSpace s) ++ y from g1]
    exact h1
  · intro c hc
    rcases List.mem_append.1 hc with h | h
    · exact h2 c h
    · exact g2 c h

end CPE
