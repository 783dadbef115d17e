import Verif.Spec.Comments
import Verif.Proofs.IniCfg
/-
Blank lines at the end of a value: readers that agree once the values are settled.
-/
namespace CPE
open Spec
namespace Reader
variable {cn : Str}

/-- What becomes of a value at the end of the file. -/
def joinedVal (v : RawLines) : RawLines := v.map fun ls => [rstrip (joinLines ls)]

/-- What becomes of everything read at the end of the file. -/
def settled (r : Reader) : Reader :=
  { r with sections := r.sections.map fun sd => (sd.1, joinDict sd.2), common := joinDict r.common }

theorem joinedVal_idem (v : RawLines) : joinedVal (joinedVal v) = joinedVal v := by
  cases v with
  | none => rfl
  | some ls => simp [joinedVal, joinLines, rstrip_idem]

theorem joinDict_idem (d : Dict Str RawLines) : joinDict (joinDict d) = joinDict d := by
  unfold joinDict
  rw [List.map_map]
  refine List.map_congr_left fun kv _ => ?_
  exact Prod.ext rfl (joinedVal_idem kv.2)

theorem settled_idem (r : Reader) : settled (settled r) = settled r := by
  unfold settled
  dsimp only
  rw [joinDict_idem, List.map_map]
  congr 1
  refine List.map_congr_left fun kv _ => ?_
  exact Prod.ext rfl (joinDict_idem kv.2)

theorem joinDict_set (d : Dict Str RawLines) (k : Str) (v : RawLines) : joinDict (Dict.set d k v) = Dict.set (joinDict d) k (joinedVal v) :=
  (Dict.set_mapVals joinedVal d k v).symm

theorem joinDict_get (d : Dict Str RawLines) (k : Str) : Dict.get? (joinDict d) k = (Dict.get? d k).map joinedVal :=
  Dict.get?_mapVals joinedVal d k

theorem settled_cur (r : Reader) (s : Str) : (settled r).cur cn s = joinDict (r.cur cn s) := by
  unfold cur settled
  dsimp only
  split
  · rfl
  · rw [Dict.get?_mapVals joinDict]
    cases Dict.get? r.sections s <;> rfl

theorem settled_putCur (r : Reader) (s : Str) (d : Dict Str RawLines) : settled (r.putCur cn s d) = (settled r).putCur cn s (joinDict d) := by
  unfold putCur settled
  split
  · rfl
  · dsimp only
    rw [Dict.set_mapVals joinDict]

theorem putCur_cur (r : Reader) (s : Str) (d : Dict Str RawLines) : (r.putCur cn s d).cur cn s = d := by
  unfold putCur cur
  by_cases h : s = cn
  · simp [h]
  · simp [h, Dict.get?_set_self]

theorem putCur_pending_eq (r : Reader) (s : Str) (d : Dict Str RawLines) : (r.putCur cn s d).pending = r.pending := by
  unfold putCur
  by_cases h : s = cn <;> simp only [h, if_true, if_false] <;> rfl

theorem settled_pending (r : Reader) : (settled r).pending = r.pending := rfl

/-- A line that is no header, in a section or in none. -/
def startIn (cn : Str) (D : List Str) (value : Str) (r : Reader) : Option Str → Option PyExc × Reader
  | none => (some .missingSectionHeader, r)
  | some s => option cn D r s value

/-- A line that does not continue a value. -/
def start (cn : Str) (D : List Str) (ind : Nat) (value : Str) (r : Reader) : Option PyExc × Reader :=
  match sectionHeader value with
  | some name => header cn { r with indent := ind } name
  | none => startIn cn D value { r with indent := ind } r.cursect

theorem header_settled (r : Reader) (name : Str) :
    (header cn (settled r) name).1 = (header cn r name).1 ∧ (header cn (settled r) name).2 = settled (header cn r name).2 := by
  have hm : Dict.mem (settled r).sections name = Dict.mem r.sections name := by
    unfold Dict.mem settled
    dsimp only
    rw [Dict.get?_mapVals joinDict]
    cases Dict.get? r.sections name <;> rfl
  unfold header
  rw [hm]
  have ha : (settled r).added = r.added := rfl
  rw [ha]
  split
  · split <;> exact ⟨rfl, rfl⟩
  · split
    · exact ⟨rfl, rfl⟩
    · refine ⟨rfl, ?_⟩
      unfold settled
      dsimp only
      rw [← Dict.set_mapVals joinDict]
      rfl

theorem option_settled (D : List Str) (r : Reader) (s value : Str) :
    (option cn D (settled r) s value).1 = (option cn D r s value).1 ∧
      settled (option cn D (settled r) s value).2 = settled (option cn D r s value).2 := by
  unfold option
  generalize splitOption (delimPatterns D) value = kv
  obtain ⟨k, v⟩ := kv
  dsimp only
  have e : (if k = [] then { settled r with bad := true } else settled r) = settled (if k = [] then { r with bad := true } else r) := by
    split <;> rfl
  rw [e]
  generalize (if k = [] then { r with bad := true } else r) = q
  have ha : (settled q).added = q.added := rfl
  rw [ha]
  split
  · exact ⟨rfl, settled_idem { q with optname := some (rstrip k) }⟩
  · refine ⟨rfl, ?_⟩
    show settled (putCur cn (settled { q with added := (s, some (rstrip k)) :: q.added, optname := some (rstrip k) }) s
      (Dict.set ((settled { q with added := (s, some (rstrip k)) :: q.added, optname := some (rstrip k) }).cur cn s) _ _)) = _
    rw [settled_putCur, settled_putCur, settled_idem, joinDict_set, joinDict_set, settled_cur, joinDict_idem]

theorem start_settled (D : List Str) (ind : Nat) (value : Str) {r r' : Reader} (h : settled r = settled r') :
    (start cn D ind value r).1 = (start cn D ind value r').1 ∧ settled (start cn D ind value r).2 = settled (start cn D ind value r').2 := by
  have key : ∀ q : Reader, (start cn D ind value q).1 = (start cn D ind value (settled q)).1 ∧
      settled (start cn D ind value q).2 = settled (start cn D ind value (settled q)).2 := by
    intro q
    unfold start
    cases sectionHeader value with
    | some name =>
      obtain ⟨h1, h2⟩ := header_settled (cn := cn) { q with indent := ind } name
      exact ⟨h1.symm, by
        show settled _ = settled (header cn (settled { q with indent := ind }) name).2
        rw [h2, settled_idem]⟩
    | none =>
      have aux : ∀ o, (startIn cn D value { q with indent := ind } o).1 = (startIn cn D value (settled { q with indent := ind }) o).1 ∧
          settled (startIn cn D value { q with indent := ind } o).2 = settled (startIn cn D value (settled { q with indent := ind }) o).2 := by
        intro o
        cases o with
        | none => exact ⟨rfl, (settled_idem { q with indent := ind }).symm⟩
        | some s =>
          obtain ⟨h1, h2⟩ := option_settled (cn := cn) D { q with indent := ind } s value
          exact ⟨h1.symm, h2.symm⟩
      exact aux q.cursect
  rw [(key r).1, (key r).2, (key r').1, (key r').2, h]
  exact ⟨rfl, rfl⟩

/-- The values that may be continued are the same. -/
def SamePending (cn : Str) (r r' : Reader) : Prop := ∀ s k, r.pending = some (s, k) → Dict.get? (r.cur cn s) k = Dict.get? (r'.cur cn s) k

theorem option_pending (D : List Str) {q q' : Reader} {s0 value : Str} (ha : q.added = q'.added) (hs : q.cursect = some s0)
    (hn : (option cn D q s0 value).1 = none) : SamePending cn (option cn D q s0 value).2 (option cn D q' s0 value).2 := by
  intro s k hp
  revert hn hp
  unfold option
  generalize splitOption (delimPatterns D) value = kv
  obtain ⟨k0, v⟩ := kv
  dsimp only
  have e1 : (if k0 = [] then { q with bad := true } else q).added = q.added := by split <;> rfl
  have e2 : (if k0 = [] then { q' with bad := true } else q').added = q'.added := by split <;> rfl
  have e3 : (if k0 = [] then { q with bad := true } else q).cursect = q.cursect := by split <;> rfl
  revert e1 e2 e3
  generalize (if k0 = [] then { q with bad := true } else q) = p
  generalize (if k0 = [] then { q' with bad := true } else q') = p'
  intro e1 e2 e3
  rw [e1, e2, ← ha]
  split
  · intro h; cases h
  · intro _ hp
    rw [putCur_pending_eq] at hp
    unfold pending at hp
    dsimp only at hp
    rw [e3, hs] at hp
    dsimp only at hp
    split at hp
    · cases hp
    · cases hp
      rw [putCur_cur, putCur_cur, Dict.get?_set_self, Dict.get?_set_self]

theorem header_pending {r : Reader} {name : Str} (hn : (header cn r name).1 = none) : (header cn r name).2.pending = none := by
  revert hn
  unfold header
  split
  · split
    · intro h; cases h
    · intro _; rfl
  · split <;> (intro _; rfl)

theorem start_pending (D : List Str) (ind : Nat) (value : Str) {r r' : Reader} (h : settled r = settled r') (hn : (start cn D ind value r).1 = none) :
    SamePending cn (start cn D ind value r).2 (start cn D ind value r').2 := by
  have hc : r.cursect = r'.cursect := congrArg (·.cursect) h
  have ha : r.added = r'.added := congrArg (·.added) h
  revert hn
  unfold start
  cases sectionHeader value with
  | some name =>
    intro hn s k hp
    rw [header_pending hn] at hp
    cases hp
  | none =>
    have aux : ∀ o, r.cursect = o → (startIn cn D value { r with indent := ind } o).1 = none →
        SamePending cn (startIn cn D value { r with indent := ind } o).2 (startIn cn D value { r' with indent := ind } o).2 := by
      intro o ho
      cases o with
      | none => intro h; cases h
      | some s0 => exact option_pending D (q := { r with indent := ind }) (q' := { r' with indent := ind }) ha ho
    have := aux r.cursect rfl
    intro hn
    have h2 := this hn
    dsimp only
    rw [show startIn cn D value { r' with indent := ind } r'.cursect = startIn cn D value { r' with indent := ind } r.cursect from congrArg _ hc.symm]
    exact h2

theorem joinLines_blank (ls : List Str) : rstrip (joinLines (ls ++ [[]])) = rstrip (joinLines ls) := by
  have h : ls = [] ∨ joinLines (ls ++ [[]]) = joinLines ls ++ ['\n'] := by
    induction ls with
    | nil => exact .inl rfl
    | cons l ls ih =>
      right
      rcases ih with rfl | ih
      · rfl
      · cases ls with
        | nil => rfl
        | cons a as =>
          have e1 : joinLines (l :: a :: as ++ [[]]) = l ++ '\n' :: joinLines (a :: as ++ [[]]) := rfl
          have e2 : joinLines (l :: a :: as) = l ++ '\n' :: joinLines (a :: as) := rfl
          rw [e1, e2, ih]
          simp
  rcases h with rfl | h
  · rfl
  · rw [h, rstrip_append, if_pos (by decide)]

theorem settled_blank (D : List Str) {b : Str} (hb : Blanks b) (r : Reader) :
    (r.line cn D b).1 = none ∧ settled (r.line cn D b).2 = settled r := by
  rw [line_blank D hb]
  split
  · next s k hp =>
    split
    · next ls hg =>
      refine ⟨rfl, ?_⟩
      have hj : Dict.get? ((settled r).cur cn s) k = some (joinedVal (some ls)) := by rw [settled_cur, joinDict_get, hg]; rfl
      have hv : joinedVal (some (ls ++ [[]])) = joinedVal (some ls) := by simp [joinedVal, joinLines_blank]
      rw [settled_putCur, joinDict_set, ← settled_cur, hv, Dict.set_eq_self _ _ _ hj]
      unfold cur at hj ⊢
      unfold putCur
      split
      · rfl
      · next hs =>
        rw [if_neg hs] at hj
        cases hd : Dict.get? (settled r).sections s with
        | none => rw [hd] at hj; cases hj
        | some d =>
          rw [Option.getD_some, Dict.set_eq_self _ _ _ hd]
    · exact ⟨rfl, rfl⟩
  · exact ⟨rfl, rfl⟩

theorem line_same (D : List Str) (l : Str) {r r' : Reader} (h : settled r = settled r') (hp : SamePending cn r r') :
    (r.line cn D l).1 = (r'.line cn D l).1 ∧ settled (r.line cn D l).2 = settled (r'.line cn D l).2 ∧
      ((r.line cn D l).1 = none → SamePending cn (r.line cn D l).2 (r'.line cn D l).2) := by
  have hpe : r.pending = r'.pending := by
    rw [← settled_pending r, h, settled_pending]
  have hi : r.indent = r'.indent := congrArg (·.indent) h
  have more : ∀ s k, r.pending = some (s, k) → ∀ v, settled (r.putCur cn s (Dict.set (r.cur cn s) k v)) = settled (r'.putCur cn s (Dict.set (r'.cur cn s) k v)) ∧
      SamePending cn (r.putCur cn s (Dict.set (r.cur cn s) k v)) (r'.putCur cn s (Dict.set (r'.cur cn s) k v)) := by
    intro s k hk v
    refine ⟨?_, fun s' k' h' => ?_⟩
    · rw [settled_putCur, settled_putCur, joinDict_set, joinDict_set, ← settled_cur, ← settled_cur, h]
    · rw [putCur_pending_eq, hk] at h'
      cases h'
      rw [putCur_cur, putCur_cur, Dict.get?_set_self, Dict.get?_set_self]
  unfold line
  dsimp only
  split
  · exact ⟨rfl, h, fun _ => hp⟩
  · split
    · rw [← hpe]
      cases hk : r.pending with
      | none => exact ⟨rfl, h, fun _ => hp⟩
      | some sk =>
        obtain ⟨s, k⟩ := sk
        dsimp only
        rw [← hp s k hk]
        split
        · exact ⟨rfl, (more s k hk _).1, fun _ => (more s k hk _).2⟩
        · exact ⟨rfl, h, fun _ => hp⟩
    · rw [← hpe, ← hi]
      split
      · next s k hk' =>
        have hk : r.pending = some (s, k) := by
          split at hk'
          · exact hk'
          · cases hk'
        rw [← hp s k hk]
        split
        · exact ⟨rfl, (more s k hk _).1, fun _ => (more s k hk _).2⟩
        · exact ⟨rfl, h, fun hx => by cases hx⟩
      · obtain ⟨h1, h2⟩ := start_settled (cn := cn) D (l.takeWhile isSpace).length (strip l) h
        exact ⟨h1, h2, start_pending D _ _ h⟩

/-- A line with text in its first column does not depend on blank lines before it. -/
theorem line_first (D : List Str) {l : Str} (hl : FirstColumn l) {r r' : Reader} (h : settled r = settled r') :
    (r.line cn D l).1 = (r'.line cn D l).1 ∧ settled (r.line cn D l).2 = settled (r'.line cn D l).2 ∧
      ((r.line cn D l).1 = none → SamePending cn (r.line cn D l).2 (r'.line cn D l).2) := by
  have e : ∀ q : Reader, q.line cn D l = start cn D 0 (strip l) q := by
    intro q
    cases hl with
    | @mk c t h1 h2 h3 =>
      have hns : isSpace c = false := by
        cases hx : isSpace c with
        | false => rfl
        | true => exact absurd ((Props.isSpace_iff c).1 hx) h1
      have hhead : (strip (c :: t)).head? = some c := by
        unfold strip stripBy lstripBy
        rw [List.dropWhile_cons, if_neg (by simp [hns])]
        obtain ⟨b, hb, hb2⟩ := rstripBy_split isSpace (c :: t)
        cases hr : rstripBy isSpace (c :: t) with
        | nil =>
          rw [hr, List.nil_append] at hb
          have := hb2 c (by rw [← hb]; exact List.mem_cons_self ..)
          rw [hns] at this; cases this
        | cons x xs => rw [hr] at hb; cases hb; rfl
      unfold line
      dsimp only
      rw [hhead, if_neg (by simp [h2, h3]), if_neg (by intro hx; rw [hx] at hhead; cases hhead), List.takeWhile_cons, hns]
      simp only [Bool.false_eq_true, if_false, List.length_nil, Nat.not_lt_zero]
      rfl
  rw [e, e]
  exact ⟨(start_settled D 0 _ h).1, (start_settled D 0 _ h).2, start_pending D 0 _ h⟩

theorem strip_trail {w : Str} (hw : Blanks w) (l : Str) : strip (l ++ w) = strip l := by
  have hs : ∀ c ∈ w, isSpace c = true := fun c hc => white_space (hw c hc).1
  have hr : rstrip w = [] := by
    unfold rstrip rstripBy
    rw [show w.reverse = w.reverse ++ [] by simp, List.dropWhile_append_of_pos fun c hc => hs c (List.mem_reverse.1 hc)]
    rfl
  unfold strip stripBy lstripBy
  rw [List.dropWhile_append]
  split
  · next h =>
    rw [List.isEmpty_iff] at h
    rw [h, show w = w ++ [] by simp, List.dropWhile_append_of_pos hs]
    rfl
  · have := rstrip_append (l.dropWhile isSpace) w
    rw [if_pos hr] at this
    exact this

/-- Blanks at the end of a line. -/
theorem line_trail (D : List Str) {w : Str} (hw : Blanks w) (l : Str) (r : Reader) : r.line cn D (l ++ w) = r.line cn D l := by
  have hi : strip l ≠ [] → (l ++ w).takeWhile isSpace = l.takeWhile isSpace := by
    intro hne
    rw [List.takeWhile_append, if_neg]
    intro hlen
    refine hne ?_
    have e : l.dropWhile isSpace = [] := by
      have h := congrArg List.length (List.takeWhile_append_dropWhile (p := isSpace) (l := l))
      rw [List.length_append, hlen] at h
      exact List.length_eq_zero_iff.1 (by omega)
    unfold strip stripBy lstripBy
    rw [e]
    rfl
  unfold line
  dsimp only
  rw [strip_trail hw]
  split
  · rfl
  · split
    · rfl
    · next hne => rw [hi hne]

/-- Lines with comments and blank lines put in, and blanks at their ends, are read to the same end. -/
theorem lines_blanked (D : List Str) {ls ls' : List Str} (h : Commented ls ls') :
    (∀ r r', settled r = settled r' → SamePending cn r r' →
      (lines cn D ls r).1 = (lines cn D ls' r').1 ∧ settled (lines cn D ls r).2 = settled (lines cn D ls' r').2) ∧
    (Ended ls → ∀ r r', settled r = settled r' →
      (lines cn D ls r).1 = (lines cn D ls' r').1 ∧ settled (lines cn D ls r).2 = settled (lines cn D ls' r').2) := by
  have step : ∀ {l : Str} {ls ls' : List Str} {r r' : Reader}, (∀ r r', settled r = settled r' → SamePending cn r r' →
      (lines cn D ls r).1 = (lines cn D ls' r').1 ∧ settled (lines cn D ls r).2 = settled (lines cn D ls' r').2) →
      ((r.line cn D l).1 = (r'.line cn D l).1 ∧ settled (r.line cn D l).2 = settled (r'.line cn D l).2 ∧
        ((r.line cn D l).1 = none → SamePending cn (r.line cn D l).2 (r'.line cn D l).2)) →
      (lines cn D (l :: ls) r).1 = (lines cn D (l :: ls') r').1 ∧ settled (lines cn D (l :: ls) r).2 = settled (lines cn D (l :: ls') r').2 := by
    intro l ls ls' r r' ih hh
    unfold lines
    revert hh
    generalize r.line cn D l = x
    generalize r'.line cn D l = y
    obtain ⟨x1, x2⟩ := x
    obtain ⟨y1, y2⟩ := y
    rintro ⟨h1, h2, h3⟩
    cases h1
    cases x1 with
    | none => exact ih _ _ h2 (h3 rfl)
    | some e => exact ⟨rfl, h2⟩
  induction h with
  | nil => exact ⟨fun r r' h _ => ⟨rfl, h⟩, fun _ r r' h => ⟨rfl, h⟩⟩
  | same _ ih =>
    refine ⟨fun r r' h hp => step ih.1 (line_same D _ h hp), fun he r r' h => ?_⟩
    cases he with
    | first hf => exact step ih.1 (line_first D hf h)
  | @trail l w ls ls' hw _ ih =>
    have e : ∀ r', lines cn D ((l ++ w) :: ls') r' = lines cn D (l :: ls') r' := fun r' => by
      rw [lines.eq_2, lines.eq_2, line_trail D hw]
    refine ⟨fun r r' h hp => ?_, fun he r r' h => ?_⟩
    · rw [e]; exact step ih.1 (line_same D _ h hp)
    · rw [e]
      cases he with
      | first hf => exact step ih.1 (line_first D hf h)
  | comment hc _ ih =>
    refine ⟨fun r r' h hp => ?_, fun he r r' h => ?_⟩
    · rw [lines.eq_2 (l := _), line_comment D hc r']
      exact ih.1 r r' h hp
    · rw [lines.eq_2 (l := _), line_comment D hc r']
      exact ih.2 he r r' h
  | @blank b ls ls' hb he _ ih =>
    have key : ∀ r r', settled r = settled r' → (lines cn D ls r).1 = (lines cn D (b :: ls') r').1 ∧
        settled (lines cn D ls r).2 = settled (lines cn D (b :: ls') r').2 := by
      intro r r' h
      obtain ⟨h1, h2⟩ := settled_blank (cn := cn) D hb r'
      have := ih.2 he r (r'.line cn D b).2 (h.trans h2.symm)
      rw [lines.eq_2 (l := _)]
      revert this h1
      generalize r'.line cn D b = y
      obtain ⟨y1, y2⟩ := y
      intro h1 this
      cases h1
      exact this
    exact ⟨fun r r' h _ => key r r' h, fun _ => key⟩

end Reader
end CPE
