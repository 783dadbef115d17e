import Verif.Proofs.IniText
/-
Reading the lines of a document: the state of the reader, line by line.
-/
namespace CPE
open Spec

namespace Reader
variable {cn : Str} {r : Reader}

theorem cur_putCur (s : Str) (d : Dict Str RawLines) : (r.putCur cn s d).cur cn s = d := by
  unfold cur putCur
  by_cases h : s = cn
  · simp [h]
  · simp [h, Dict.get?_set_self]

theorem putCur_putCur (s : Str) (d d' : Dict Str RawLines) : (r.putCur cn s d).putCur cn s d' = r.putCur cn s d' := by
  unfold putCur
  by_cases h : s = cn
  · simp [h]
  · simp [h, Dict.set_set]

theorem putCur_self {s : Str} (h : s = cn ∨ Dict.mem r.sections s = true) : r.putCur cn s (r.cur cn s) = r := by
  unfold putCur cur
  by_cases hc : s = cn
  · simp [hc]
  · rcases h with h | h
    · exact absurd h hc
    · simp only [if_neg hc]
      unfold Dict.mem at h
      cases hg : Dict.get? r.sections s with
      | none => rw [hg] at h; cases h
      | some d => rw [Option.getD_some, Dict.set_eq_self _ _ _ hg]

@[simp] theorem putCur_cursect (s : Str) (d) : (r.putCur cn s d).cursect = r.cursect := by unfold putCur; split <;> rfl
@[simp] theorem putCur_optname (s : Str) (d) : (r.putCur cn s d).optname = r.optname := by unfold putCur; split <;> rfl
@[simp] theorem putCur_indent (s : Str) (d) : (r.putCur cn s d).indent = r.indent := by unfold putCur; split <;> rfl
@[simp] theorem putCur_added (s : Str) (d) : (r.putCur cn s d).added = r.added := by unfold putCur; split <;> rfl
@[simp] theorem putCur_bad (s : Str) (d) : (r.putCur cn s d).bad = r.bad := by unfold putCur; split <;> rfl
@[simp] theorem putCur_pending (s : Str) (d) : (r.putCur cn s d).pending = r.pending := by
  unfold pending; rw [putCur_cursect, putCur_optname]

theorem putCur_in (s : Str) (d) : s = cn ∨ Dict.mem (r.putCur cn s d).sections s = true := by
  by_cases hc : s = cn
  · exact .inl hc
  · right; unfold putCur; rw [if_neg hc]; simp [Dict.mem, Dict.get?_set_self]

/-- Equal data. -/
structure Same (r r' : Reader) : Prop where
  sections : r'.sections = r.sections
  common : r'.common = r.common

theorem Same.refl (r : Reader) : Same r r := ⟨rfl, rfl⟩
theorem Same.trans {a b c : Reader} (h : Same a b) (g : Same b c) : Same a c :=
  ⟨g.sections.trans h.sections, g.common.trans h.common⟩

theorem Same.cur {a b : Reader} (h : Same a b) (s : Str) : b.cur cn s = a.cur cn s := by
  unfold Reader.cur; rw [h.1, h.2]

theorem Same.putCur {a b : Reader} (h : Same a b) (s : Str) (d) : Same (a.putCur cn s d) (b.putCur cn s d) := by
  unfold Reader.putCur
  split
  · exact ⟨h.1, rfl⟩
  · exact ⟨by dsimp only; rw [h.1], h.2⟩

theorem lines_append (D : List Str) : ∀ (a b : List Str) (r : Reader), lines cn D (a ++ b) r =
    match lines cn D a r with
    | (none, r') => lines cn D b r'
    | (some e, r') => (some e, r')
  | [], b, r => rfl
  | l :: a, b, r => by
    rw [List.cons_append, lines, lines]
    cases h : r.line cn D l with
    | mk e r' =>
      cases e with
      | none => exact lines_append D a b r'
      | some e => rfl

/-! ### One line -/

theorem line_comment (D : List Str) {l : Str} (h : CommentLine l) (r : Reader) : r.line cn D l = (none, r) := by
  cases h with
  | @mk w c t hw hc ht =>
    have hns : isSpace c = false := by rcases hc with rfl | rfl <;> decide
    have hhead : (strip (w ++ c :: t)).head? = some c := by
      unfold strip stripBy lstripBy
      rw [List.dropWhile_append_of_pos fun x hx => white_space (hw x hx).1, List.dropWhile_cons, if_neg (by simp [hns])]
      obtain ⟨b, hb, hb2⟩ := rstripBy_split isSpace (c :: t)
      cases hr : rstripBy isSpace (c :: t) with
      | nil =>
        rw [hr, List.nil_append] at hb
        have := hb2 c (by rw [← hb]; exact List.mem_cons_self ..)
        rw [hns] at this; cases this
      | cons a u => rw [hr, List.cons_append] at hb; cases hb; rfl
    unfold line
    dsimp only
    rw [hhead, if_pos (by rcases hc with rfl | rfl <;> simp)]

theorem line_blank (D : List Str) {l : Str} (h : Blanks l) (r : Reader) : r.line cn D l =
    match r.pending with
    | some (s, k) => match Dict.get? (r.cur cn s) k with
      | some (some ls) => (none, r.putCur cn s (Dict.set (r.cur cn s) k (some (ls ++ [[]]))))
      | _ => (none, r)
    | none => (none, r) := by
  unfold line
  dsimp only
  rw [strip_blanks h, if_neg (by simp), if_pos rfl]
  rfl

theorem line_text (D : List Str) {w t e : Str} (hw : Blanks w) (hne : t ≠ []) (ht : Tight t)
    (hc : ∀ c, t.head? = some c → c ≠ '#' ∧ c ≠ ';') (he : Blanks e) (r : Reader) : r.line cn D (w ++ t ++ e) =
    match (if r.indent < w.length then r.pending else none) with
    | some (s, k) => match Dict.get? (r.cur cn s) k with
      | some (some ls) => (none, r.putCur cn s (Dict.set (r.cur cn s) k (some (ls ++ [t]))))
      | _ => (some .attributeError, r)
    | none =>
      match sectionHeader t with
      | some name => header cn { r with indent := w.length } name
      | none => match r.cursect with
        | none => (some .missingSectionHeader, { r with indent := w.length })
        | some s => option cn D { r with indent := w.length } s t := by
  have hind : ((w ++ t ++ e).takeWhile isSpace) = w := by
    rw [List.append_assoc, takeWhile_padded hw]
    intro c h
    refine ht.1 c ?_
    cases t with
    | nil => exact absurd rfl hne
    | cons a t => exact h
  have hnc : ¬ (t.head? = some '#' ∨ t.head? = some ';') := by
    rintro (h | h)
    · exact (hc _ h).1 rfl
    · exact (hc _ h).2 rfl
  unfold line
  dsimp only
  rw [strip_padded hw ht he, hind, if_neg hnc, if_neg hne]
  rfl

theorem line_header (D : List Str) {name h : Str} (hl : HeaderLine name h) (r : Reader) :
    r.line cn D h = header cn { r with indent := 0 } name := by
  cases hl with
  | @mk junk hn h1 h2 hj =>
    have hx : ∃ junk' e, '[' :: name ++ ']' :: junk = [] ++ ('[' :: name ++ ']' :: junk') ++ e ∧
        (∀ c ∈ e, isSpace c = true) ∧ Tight ('[' :: name ++ ']' :: junk') ∧ ']' ∉ junk' := by
      obtain ⟨e, he1, he2⟩ := rstripBy_split isSpace junk
      refine ⟨rstripBy isSpace junk, e, ?_, he2, ⟨?_, ?_⟩, ?_⟩
      · conv => lhs; rw [he1]
        simp
      · intro c hc
        cases hc
        intro hw
        have := white_space hw
        simp [open_not_space] at this
      · intro c hc hw
        cases hr : rstripBy isSpace junk with
        | nil =>
          rw [hr, List.getLast?_append] at hc
          have : ']' = c := by simpa using hc
          subst this
          exact absurd (white_space hw) (by decide)
        | cons a u =>
          have h3 : (rstripBy isSpace junk).getLast? = some c := by
            rw [hr] at hc ⊢
            rw [List.getLast?_append] at hc
            rw [List.getLast?_cons_of_ne_nil (by simp)] at hc
            cases hg : (a :: u).getLast? with
            | none => simp at hg
            | some x => rw [hg] at hc; simpa using hc
          exact absurd (rstripBy_last h3) (by simp [white_space hw])
      · intro hm; exact hj (by rw [he1]; exact List.mem_append_left _ hm)
    obtain ⟨junk', e, e1, e2, e3, e4⟩ := hx
    have hstrip : strip ('[' :: name ++ ']' :: junk) = '[' :: name ++ ']' :: junk' := by
      rw [e1]
      exact stripBy_unique rfl (by simp) e2 (fun c hc => not_white_space (e3.1 c hc)) (fun c hc => not_white_space (e3.2 c hc))
    unfold line
    dsimp only
    rw [hstrip, if_neg (by simp), if_neg (by simp), sectionHeader_of hn e4]
    have : (('[' :: name ++ ']' :: junk).takeWhile isSpace).length = 0 := by
      rw [List.cons_append, List.takeWhile_cons, if_neg]; rfl; simp [open_not_space]
    rw [this]
    simp

theorem delimPatterns_map {ds : List Char} (hne : ds ≠ []) :
    delimPatterns (ds.map fun c => [c]) = ds.map fun c => [c] := by
  unfold delimPatterns
  rw [if_neg]
  simpa using hne

/-- The state after an option line. -/
def putOption (cn : Str) (i : Nat) (r : Reader) (s k : Str) (v : RawLines) : Reader :=
  ({ r with indent := i, added := (s, some k) :: r.added, optname := some k } : Reader).putCur cn s
    (Dict.set (r.cur cn s) k v)

theorem line_option {ds : List Char} (hne : ds ≠ []) (hds : ∀ d ∈ ds, ¬ White d) {i : Nat} {l k : Str} {v : Option Str}
    (hl : OptionLine ds i l k v) (r : Reader) {s : Str} (hs : r.cursect = some s)
    (hp : r.pending = none ∨ i ≤ r.indent) :
    r.line cn (ds.map fun c => [c]) l =
      if (s, some k) ∈ r.added then (some .duplicateOption, { r with indent := i, optname := some k })
      else (none, putOption cn i r s k (v.map fun v => [v])) := by
  have hpend : (if r.indent < i then r.pending else none) = none := by
    rcases hp with h | h
    · rw [h]; split <;> rfl
    · rw [if_neg (by omega)]
  cases hl with
  | @value w _ a d b v e hw hi hk ha hd hb hv hvl he =>
    subst hi
    -- the stripped line
    have hx : ∃ rest e', w ++ k ++ a ++ d :: b ++ v ++ e = w ++ (k ++ (a ++ d :: rest)) ++ e' ∧ Blanks e' ∧
        strip rest = v ∧ (∀ c, (d :: rest).getLast? = some c → ¬ White c) := by
      cases v with
      | nil =>
        refine ⟨[], b ++ e, by simp, ?_, by rfl, ?_⟩
        · intro c hc
          rcases List.mem_append.1 hc with h | h
          · exact hb c h
          · exact he c h
        · intro c hc; cases hc; exact hds _ hd
      | cons x v =>
        refine ⟨b ++ x :: v, e, by simp, he, ?_, ?_⟩
        · have := strip_padded hb hv (e := []) (by intro c hc; simp at hc)
          simpa using this
        · intro c hc
          refine hv.2 c ?_
          rw [List.getLast?_cons_of_ne_nil (by simp), List.getLast?_append] at hc
          cases hg : (x :: v).getLast? with
          | none => simp at hg
          | some y => rw [hg] at hc; simpa using hc
    obtain ⟨rest, e', e1, e2, e3, e4⟩ := hx
    have ht : Tight (k ++ (a ++ d :: rest)) := by
      refine ⟨fun c hc => hk.tight.1 c ?_, fun c hc => e4 c ?_⟩
      · cases k with
        | nil => exact absurd rfl hk.nonempty
        | cons y k => exact hc
      · rw [← List.append_assoc, List.getLast?_append] at hc
        cases hg : (d :: rest).getLast? with
        | none => simp at hg
        | some y => rw [hg] at hc; simpa using hc
    have hhead : ∀ c, (k ++ (a ++ d :: rest)).head? = some c → c ≠ '#' ∧ c ≠ ';' ∧ c ≠ '[' := by
      intro c hc
      refine hk.first c ?_
      cases k with
      | nil => exact absurd rfl hk.nonempty
      | cons y k => exact hc
    rw [e1, line_text _ hw (by simp) ht (fun c hc => ⟨(hhead c hc).1, (hhead c hc).2.1⟩) e2, hpend]
    dsimp only
    rw [sectionHeader_other fun hc => (hhead _ hc).2.2 rfl, hs]
    dsimp only
    unfold option
    rw [delimPatterns_map hne, splitOption_value hds hk ha hd]
    dsimp only
    rw [if_neg hk.nonempty, rstrip_tight hk.tight]
    split
    · rfl
    · simp only [Option.map_some, strip_lstrip, e3, putOption, hs]
      rfl
  | @bare w _ e hw hi hk he =>
    subst hi
    rw [line_text _ hw hk.nonempty hk.tight (fun c hc => ⟨(hk.first c hc).1, (hk.first c hc).2.1⟩) he, hpend]
    dsimp only
    rw [sectionHeader_other fun hc => (hk.first _ hc).2.2 rfl, hs]
    dsimp only
    unfold option
    rw [delimPatterns_map hne, splitOption_bare hk]
    dsimp only
    rw [if_neg hk.nonempty, rstrip_tight hk.tight]
    split
    · rfl
    · simp only [Option.map_none, putOption, hs]
      rfl

/-! ### Blocks of lines -/

theorem lines_skip (D : List Str) : ∀ {ls : List Str}, (∀ x ∈ ls, SkipLine x) → ∀ (r : Reader),
    (∀ s k, r.pending = some (s, k) → Dict.get? (r.cur cn s) k = some none) → lines cn D ls r = (none, r)
  | [], _, r, _ => rfl
  | l :: ls, h, r, hp => by
    have h1 : r.line cn D l = (none, r) := by
      rcases h l (List.mem_cons_self ..) with hc | hb
      · exact line_comment D hc r
      · rw [line_blank D hb]
        cases hq : r.pending with
        | none => rfl
        | some sk =>
          obtain ⟨s, k⟩ := sk
          dsimp only
          rw [hp s k hq]
    rw [lines, h1]
    exact lines_skip D (fun x hx => h x (List.mem_cons_of_mem _ hx)) r hp

theorem lines_more (D : List Str) {i : Nat} {ls vs : List Str} (h : MoreLines i ls vs) : ∀ (r : Reader) {s k : Str} {l0 : List Str},
    r.pending = some (s, k) → r.indent = i → (s = cn ∨ Dict.mem r.sections s = true) →
    Dict.get? (r.cur cn s) k = some (some l0) →
    lines cn D ls r = (none, r.putCur cn s (Dict.set (r.cur cn s) k (some (l0 ++ vs)))) := by
  induction h with
  | nil =>
    intro r s k l0 _ _ hin hg
    rw [List.append_nil, Dict.set_eq_self _ _ _ hg, putCur_self hin]; rfl
  | comment hc _ ih =>
    intro r s k l0 hp hi hin hg
    rw [lines, line_comment D hc]
    exact ih r hp hi hin hg
  | blank hb _ ih =>
    intro r s k l0 hp hi hin hg
    rw [lines, line_blank D hb, hp]
    dsimp only
    rw [hg]
    dsimp only
    rw [ih _ (s := s) (k := k) (l0 := l0 ++ [[]]) (by rw [putCur_pending]; exact hp) (by rw [putCur_indent]; exact hi)
      (putCur_in _ _) (by rw [cur_putCur, Dict.get?_set_self]), cur_putCur, Dict.set_set, putCur_putCur, List.append_assoc]
    rfl
  | text hw hlt hne ht _ hc he _ ih =>
    intro r s k l0 hp hi hin hg
    rw [lines, line_text D hw hne ht hc he, if_pos (by rw [hi]; exact hlt), hp]
    dsimp only
    rw [hg]
    dsimp only
    rw [ih _ (s := s) (k := k) (by rw [putCur_pending]; exact hp) (by rw [putCur_indent]; exact hi)
      (putCur_in _ _) (by rw [cur_putCur, Dict.get?_set_self]), cur_putCur, Dict.set_set, putCur_putCur, List.append_assoc]
    rfl

/-- The options of a section, written over a dict. -/
def rawSet (d : Dict Str RawLines) (os : List DocOption) : Dict Str RawLines :=
  os.foldl (fun d o => Dict.set d o.1 o.2) d

theorem OptionLine.key {ds : List Char} {i : Nat} {l k : Str} {v : Option Str} (h : OptionLine ds i l k v) : GoodKey ds k := by
  cases h <;> assumption

/-- One option with its further lines. -/
theorem lines_option {ds : List Char} (hne : ds ≠ []) (hds : ∀ d ∈ ds, ¬ White d) {i : Nat} {ls : List Str} {o : DocOption}
    (h : OptionText ds i ls o) (r : Reader) {s : Str} (hs : r.cursect = some s) (hp : r.pending = none ∨ i ≤ r.indent)
    (hadd : (s, some o.1) ∉ r.added) :
    lines cn (ds.map fun c => [c]) ls r = (none, putOption cn i r s o.1 o.2) := by
  cases h with
  | @value l k v ls vs hl hm =>
    have hk := OptionLine.key hl
    rw [lines, line_option hne hds hl r hs hp, if_neg hadd]
    dsimp only
    have h1 := lines_more (cn := cn) (ds.map fun c => [c]) hm (putOption cn i r s k (some [v])) (s := s) (k := k) (l0 := [v])
      (by unfold putOption; rw [putCur_pending]; unfold pending; dsimp only; rw [hs]; simp [hk.nonempty])
      (by unfold putOption; rw [putCur_indent])
      (by unfold putOption; exact putCur_in _ _)
      (by unfold putOption; rw [cur_putCur, Dict.get?_set_self])
    change lines cn _ ls (putOption cn i r s k (some [v])) = _
    rw [h1]
    unfold putOption
    rw [cur_putCur, Dict.set_set, putCur_putCur]
    rfl
  | @bare l k ls hl hsk =>
    have hk := OptionLine.key hl
    rw [lines, line_option hne hds hl r hs hp, if_neg hadd]
    dsimp only
    refine lines_skip _ hsk _ ?_
    intro s' k' hpend
    have : (putOption cn i r s k none).pending = some (s, k) := by
      unfold putOption; rw [putCur_pending]; unfold pending; dsimp only; rw [hs]; simp [hk.nonempty]
    change (putOption cn i r s k none).pending = _ at hpend
    rw [this] at hpend
    cases hpend
    change Dict.get? ((putOption cn i r s k none).cur cn s) k = _
    unfold putOption
    rw [cur_putCur, Dict.get?_set_self]

/-- What reading the body of section `s` changes. -/
structure BodyRead (cn s : Str) (i : Nat) (os : List DocOption) (r r' : Reader) : Prop where
  data : Same (r.putCur cn s (rawSet (r.cur cn s) os)) r'
  cursect : r'.cursect = some s
  bad : r'.bad = r.bad
  added : ∀ x, x ∈ r'.added ↔ x ∈ r.added ∨ ∃ o ∈ os, x = (s, some o.1)
  last : ∀ o, os.getLast? = some o → r'.indent = i ∧ r'.optname = some o.1 ∧ o.1 ≠ []

theorem lines_body {ds : List Char} (hne : ds ≠ []) (hds : ∀ d ∈ ds, ¬ White d) {i : Nat} {ls : List Str}
    {os : List DocOption} (h : BodyText ds i ls os) {s : Str} : ∀ (r : Reader), r.cursect = some s →
    (r.pending = none ∨ i ≤ r.indent) → (s = cn ∨ Dict.mem r.sections s = true) → (os.map Prod.fst).Nodup →
    (∀ o ∈ os, (s, some o.1) ∉ r.added) →
    ∃ r', lines cn (ds.map fun c => [c]) ls r = (none, r') ∧ BodyRead cn s i os r r' := by
  induction h with
  | nil =>
    intro r hs _ hin _ _
    refine ⟨r, rfl, ?_, hs, rfl, by simp, by simp⟩
    rw [show rawSet (r.cur cn s) [] = r.cur cn s from rfl, putCur_self hin]
    exact Same.refl r
  | @cons ls ls' o os ho hb ih =>
    intro r hs hp hin hnd hadd
    rw [lines_append, lines_option hne hds ho r hs hp (hadd o (List.mem_cons_self ..))]
    dsimp only
    rw [List.map_cons, List.nodup_cons] at hnd
    obtain ⟨r', g1, g2⟩ := ih (putOption cn i r s o.1 o.2) (by unfold putOption; rw [putCur_cursect]; exact hs)
      (.inr (by unfold putOption; rw [putCur_indent]; exact Nat.le_refl _)) (by unfold putOption; exact putCur_in _ _) hnd.2 (by
        intro o' ho' hm
        unfold putOption at hm
        rw [putCur_added] at hm
        rcases List.mem_cons.1 hm with h | h
        · have h2 : o'.1 = o.1 := by simpa using h
          exact hnd.1 (List.mem_map.2 ⟨o', ho', h2⟩)
        · exact hadd o' (List.mem_cons_of_mem _ ho') h)
    refine ⟨r', g1, ?_, g2.cursect, ?_, ?_, ?_⟩
    · refine Same.trans ?_ g2.data
      unfold putOption
      rw [cur_putCur, putCur_putCur]
      exact Same.putCur (a := r) (b := { r with indent := i, added := (s, some o.1) :: r.added, optname := some o.1 })
        ⟨rfl, rfl⟩ _ _
    · rw [g2.bad]; unfold putOption; rw [putCur_bad]
    · intro x
      rw [g2.added]
      unfold putOption
      rw [putCur_added]
      simp only [List.mem_cons]
      constructor
      · rintro ((rfl | h) | ⟨o', h1, rfl⟩)
        · exact .inr ⟨o, .inl rfl, rfl⟩
        · exact .inl h
        · exact .inr ⟨o', .inr h1, rfl⟩
      · rintro (h | ⟨o', rfl | h1, rfl⟩)
        · exact .inl (.inr h)
        · exact .inl (.inl rfl)
        · exact .inr ⟨o', h1, rfl⟩
    · intro o' ho'
      cases os with
      | nil =>
        cases ho'
        cases hb
        rw [lines] at g1
        cases g1
        unfold putOption
        rw [putCur_indent, putCur_optname]
        refine ⟨rfl, rfl, ?_⟩
        cases ho with
        | value h1 _ => exact (OptionLine.key h1).nonempty
        | bare h1 _ => exact (OptionLine.key h1).nonempty
      | cons a os => exact g2.last o' ho'

/-- A document written over the data of a reader. -/
def putAll (cn : Str) (doc : Doc) (r : Reader) : Reader :=
  doc.foldl (fun r x => r.putCur cn x.1 (rawSet (r.cur cn x.1) x.2)) r

theorem Same.putAll (doc : Doc) : ∀ {a b : Reader}, Same a b → Same (putAll cn doc a) (putAll cn doc b) := by
  induction doc with
  | nil => intro a b h; exact h
  | cons x doc ih =>
    intro a b h
    refine ih ?_
    change Same (a.putCur cn x.1 (rawSet (a.cur cn x.1) x.2)) (b.putCur cn x.1 (rawSet (b.cur cn x.1) x.2))
    rw [h.cur]
    exact h.putCur _ _

/-- What reading a document changes. -/
structure DocRead (cn : Str) (doc : Doc) (r r' : Reader) : Prop where
  data : Same (putAll cn doc r) r'
  bad : r'.bad = r.bad
  added : ∀ x, x ∈ r'.added → x ∈ r.added ∨ x.1 ∈ doc.map Prod.fst
  kept : ∀ x, x ∈ r.added → x ∈ r'.added
  names : ∀ n ∈ doc.map Prod.fst, n ≠ cn → (n, none) ∈ r'.added

theorem putCur_common (hcn : Dict.mem r.sections cn = false) (s : Str) (d) : Dict.mem (r.putCur cn s d).sections cn = false := by
  unfold putCur
  split
  · exact hcn
  · next h =>
    unfold Dict.mem at hcn ⊢
    dsimp only
    rw [Dict.get?_set_ne _ _ (Ne.symm h)]; exact hcn

theorem header_new {name : Str} (hnew : (name, none) ∉ r.added) :
    ∃ r1, header cn r name = (none, r1) ∧ Same (r.putCur cn name (r.cur cn name)) r1 ∧ r1.cursect = some name ∧
      r1.optname = none ∧ r1.bad = r.bad ∧ r1.indent = r.indent ∧ (name = cn ∨ Dict.mem r1.sections name = true) ∧
      (∀ x, x ∈ r1.added → x ∈ r.added ∨ x = (name, none)) ∧ (∀ x, x ∈ r.added → x ∈ r1.added) ∧
      (name ≠ cn → (name, none) ∈ r1.added) := by
  unfold header
  by_cases hm : Dict.mem r.sections name = true
  · rw [if_pos hm, if_neg hnew]
    refine ⟨_, rfl, ?_, rfl, rfl, rfl, rfl, .inr hm, ?_, fun x hx => List.mem_cons_of_mem _ hx,
      fun _ => List.mem_cons_self ..⟩
    · rw [putCur_self (.inr hm)]; exact ⟨rfl, rfl⟩
    · intro x hx; rcases List.mem_cons.1 hx with h | h
      · exact .inr h
      · exact .inl h
  · rw [if_neg hm]
    by_cases hc : name = cn
    · rw [if_pos hc]
      refine ⟨_, rfl, ?_, rfl, rfl, rfl, rfl, .inl hc, fun x hx => .inl hx, fun x hx => hx, fun h => absurd hc h⟩
      rw [putCur_self (.inl hc)]; exact ⟨rfl, rfl⟩
    · rw [if_neg hc]
      refine ⟨_, rfl, ?_, rfl, rfl, rfl, rfl, .inr ?_, ?_, fun x hx => List.mem_cons_of_mem _ hx,
        fun _ => List.mem_cons_self ..⟩
      · unfold putCur cur
        rw [if_neg hc, if_neg hc]
        have : Dict.get? r.sections name = none := by
          unfold Dict.mem at hm
          cases hg : Dict.get? r.sections name with
          | none => rfl
          | some d => rw [hg] at hm; simp at hm
        rw [this]
        exact ⟨rfl, rfl⟩
      · simp [Dict.mem, Dict.get?_set_self]
      · intro x hx; rcases List.mem_cons.1 hx with h | h
        · exact .inr h
        · exact .inl h

/-- One section. -/
theorem lines_section {ds : List Char} (hne : ds ≠ []) (hds : ∀ d ∈ ds, ¬ White d) {h name : Str} {skip ls : List Str}
    {i : Nat} {os : List DocOption} (hh : HeaderLine name h) (hsk : ∀ x ∈ skip, SkipLine x) (hb : BodyText ds i ls os)
    (r : Reader) (hcn : Dict.mem r.sections cn = false) (hnd : (os.map Prod.fst).Nodup) (hnew : (name, none) ∉ r.added)
    (hadd : ∀ o ∈ os, (name, some o.1) ∉ r.added) :
    ∃ r', lines cn (ds.map fun c => [c]) (h :: skip ++ ls) r = (none, r') ∧
      Same (r.putCur cn name (rawSet (r.cur cn name) os)) r' ∧ r'.bad = r.bad ∧ r'.cursect = some name ∧
      (∀ x, x ∈ r'.added → x ∈ r.added ∨ x = (name, none) ∨ ∃ o ∈ os, x = (name, some o.1)) ∧
      (∀ x, x ∈ r.added → x ∈ r'.added) ∧ (name ≠ cn → (name, none) ∈ r'.added) ∧
      (∀ o ∈ os, (name, some o.1) ∈ r'.added) ∧
      (∀ o, os.getLast? = some o → r'.indent = i ∧ r'.optname = some o.1 ∧ o.1 ≠ []) ∧ (os = [] → r'.pending = none) := by
  obtain ⟨r1, a1, a2, a3, a4, a5, _, a7, a8, a9, a10⟩ := header_new (cn := cn) (r := { r with indent := 0 }) (name := name) hnew
  have hp1 : r1.pending = none := by unfold pending; rw [a4]; cases r1.cursect <;> rfl
  obtain ⟨r', b1, b2⟩ := lines_body (cn := cn) hne hds hb r1 a3 (.inl hp1) a7 hnd (by
    intro o ho hm
    rcases a8 _ hm with h | h
    · exact hadd o ho h
    · cases h)
  refine ⟨r', ?_, ?_, b2.bad.trans a5, b2.cursect, ?_, fun x hx => (b2.added x).2 (.inl (a9 x hx)),
    fun h => (b2.added _).2 (.inl (a10 h)), fun o ho => (b2.added _).2 (.inr ⟨o, ho, rfl⟩), b2.last, ?_⟩
  rotate_right
  · rintro rfl
    cases hb
    cases b1
    exact hp1
  · rw [List.cons_append, lines, line_header _ hh, a1]
    dsimp only
    rw [lines_append, lines_skip _ hsk r1 (by intro s k h; rw [hp1] at h; cases h)]
    exact b1
  · refine Same.trans ?_ b2.data
    have e : r1.cur cn name = r.cur cn name := by
      rw [a2.cur, cur_putCur]; rfl
    rw [e]
    have := Same.putCur (cn := cn) a2 name (rawSet (r.cur cn name) os)
    rw [putCur_putCur] at this
    exact Same.trans (Same.putCur (a := r) (b := { r with indent := 0 }) ⟨rfl, rfl⟩ _ _) this
  · intro x hx
    rcases (b2.added x).1 hx with h | h
    · rcases a8 x h with h | h
      · exact .inl h
      · exact .inr (.inl h)
    · exact .inr (.inr h)

theorem lines_doc {ds : List Char} (hne : ds ≠ []) (hds : ∀ d ∈ ds, ¬ White d) {ls : List Str} {doc : Doc}
    (h : SectionsText ds ls doc) : ∀ (r : Reader), Dict.mem r.sections cn = false → doc.Strict →
    (∀ x ∈ r.added, x.1 ∉ doc.map Prod.fst) →
    ∃ r', lines cn (ds.map fun c => [c]) ls r = (none, r') ∧ DocRead cn doc r r' := by
  induction h with
  | nil => intro r _ _ _; exact ⟨r, rfl, Same.refl r, rfl, fun x hx => .inl hx, fun x hx => hx, by simp⟩
  | @cons h name skip i ls os ls' doc hh hsk hb _ ih =>
    intro r hcn hst hadd
    have hnd := hst.1
    rw [List.map_cons, List.nodup_cons] at hnd
    obtain ⟨r1, a1, a2, a3, _, a5, a6, a7, _, _, _⟩ := lines_section (cn := cn) hne hds hh hsk hb r hcn (hst.2 _ (List.mem_cons_self ..))
      (fun hm => hadd _ hm (List.mem_cons_self ..)) (fun o _ hm => hadd _ hm (List.mem_cons_self ..))
    obtain ⟨r', b1, b2⟩ := ih r1 (by rw [a2.sections]; exact putCur_common hcn _ _)
      ⟨hnd.2, fun x hx => hst.2 x (List.mem_cons_of_mem _ hx)⟩ (by
        intro x hx hm
        rcases a5 x hx with h | rfl | ⟨o, _, rfl⟩
        · exact hadd x h (List.mem_cons_of_mem _ hm)
        · exact hnd.1 hm
        · exact hnd.1 hm)
    refine ⟨r', ?_, Same.trans (Same.putAll doc a2) b2.data, b2.bad.trans a3, ?_, fun x hx => b2.kept x (a6 x hx), ?_⟩
    rotate_left
    · intro x hx
      rcases b2.added x hx with h | h
      · rcases a5 x h with h | rfl | ⟨o, _, rfl⟩
        · exact .inl h
        · exact .inr (List.mem_cons_self ..)
        · exact .inr (List.mem_cons_self ..)
      · exact .inr (List.mem_cons_of_mem _ h)
    · intro n hn hc
      rcases List.mem_cons.1 hn with rfl | hn
      · exact b2.kept _ (a7 hc)
      · exact b2.names n hn hc
    rw [lines_append, a1]
    exact b1

end Reader
end CPE
