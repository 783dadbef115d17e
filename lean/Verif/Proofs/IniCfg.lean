import Verif.Proofs.IniDoc
import Verif.Model.Object
/-
From the state of the reader to the configuration.
-/
namespace CPE
open Spec

namespace Dict
variable {κ ν μ : Type} [DecidableEq κ]

theorem get?_mapVals (g : ν → μ) (d : Dict κ ν) (k : κ) :
    get? (d.map fun kv => (kv.1, g kv.2)) k = (get? d k).map g := by
  induction d with
  | nil => rfl
  | cons a d ih =>
    obtain ⟨k', v⟩ := a
    simp only [List.map_cons, get?, ih]
    split <;> rfl

theorem set_mapVals (g : ν → μ) (d : Dict κ ν) (k : κ) (v : ν) :
    set (d.map fun kv => (kv.1, g kv.2)) k (g v) = (set d k v).map fun kv => (kv.1, g kv.2) := by
  induction d with
  | nil => rfl
  | cons a d ih =>
    obtain ⟨k', v'⟩ := a
    simp only [List.map_cons, set]
    split
    · rfl
    · rw [List.map_cons, ih]

end Dict

namespace Reader
variable {cn : Str} {r : Reader}

/-! ### Values -/

theorem rstrip_append (a b : Str) : rstrip (a ++ b) = if rstrip b = [] then rstrip a else a ++ rstrip b := by
  unfold rstrip rstripBy
  rw [List.reverse_append]
  by_cases h : b.reverse.dropWhile isSpace = []
  · rw [if_pos (by rw [h]; rfl)]
    have hall : ∀ c ∈ b.reverse, isSpace c = true := by
      intro c hc
      cases hx : isSpace c with
      | true => rfl
      | false =>
        have : c ∈ b.reverse.dropWhile isSpace := by
          have h2 := List.takeWhile_append_dropWhile (p := isSpace) (l := b.reverse)
          rw [← h2] at hc
          rcases List.mem_append.1 hc with h3 | h3
          · have := List.all_takeWhile (p := isSpace) (l := b.reverse)
            rw [List.all_eq_true] at this
            rw [this c h3] at hx; cases hx
          · exact h3
        rw [h] at this; cases this
    rw [List.dropWhile_append_of_pos hall]
  · rw [if_neg (by simpa using h), List.dropWhile_append, if_neg (by simpa using h), List.reverse_append, List.reverse_reverse]

theorem rstrip_idem (s : Str) : rstrip (rstrip s) = rstrip s :=
  rstripBy_eq_self fun c hc => rstripBy_last hc

theorem joinNL_dropEmpty_nil (ls : List Str) : joinNL (dropEmpty ls) = [] ↔ dropEmpty ls = [] := by
  induction ls with
  | nil => simp [dropEmpty, joinNL]
  | cons l ls ih =>
    rw [dropEmpty]
    split
    · simp [joinNL]
    · next h =>
      cases hd : dropEmpty ls with
      | nil =>
        have : l ≠ [] := fun hl => h ⟨hl, hd⟩
        simp [joinNL, this]
      | cons a as => simp [joinNL]

theorem rstrip_joinLines {ls : List Str} (h : ∀ l ∈ ls, Tight l) : rstrip (joinLines ls) = joinNL (dropEmpty ls) := by
  induction ls with
  | nil => rfl
  | cons l ls ih =>
    have hl := rstrip_tight (h l (List.mem_cons_self ..))
    have ih := ih fun x hx => h x (List.mem_cons_of_mem _ hx)
    cases ls with
    | nil =>
      rw [joinLines, hl]
      by_cases he : l = []
      · subst he; rfl
      · simp [dropEmpty, he, joinNL]
    | cons a ls =>
      rw [joinLines, rstrip_append, dropEmpty]
      · have e1 : rstrip ('\n' :: joinLines (a :: ls)) =
            if rstrip (joinLines (a :: ls)) = [] then [] else '\n' :: rstrip (joinLines (a :: ls)) := by
          have := rstrip_append ['\n'] (joinLines (a :: ls))
          rw [List.singleton_append] at this
          rw [this]
          rfl
        rw [e1, ih, hl]
        by_cases hd : dropEmpty (a :: ls) = []
        · rw [if_pos ((joinNL_dropEmpty_nil _).2 hd), if_pos rfl, hd]
          by_cases he : l = []
          · subst he; rfl
          · simp [he, joinNL]
        · have hj : joinNL (dropEmpty (a :: ls)) ≠ [] := fun hh => hd ((joinNL_dropEmpty_nil _).1 hh)
          rw [if_neg hj, if_neg (by simp), if_neg (by rintro ⟨_, h2⟩; exact hd h2)]
          cases hx : dropEmpty (a :: ls) with
          | nil => exact absurd hx hd
          | cons b bs => rfl
      · simp

/-! ### The configuration held by a reader, values joined -/

def joinOpts (d : Dict Str RawLines) : Dict Str (Option Str) :=
  d.map fun kv => (kv.1, kv.2.map fun ls => rstrip (joinLines ls))

def joined (cn : Str) (r : Reader) : Cfg where
  sections := r.sections.map fun sd => (sd.1, joinOpts sd.2)
  common := joinOpts r.common
  commonName := cn

theorem Same.joined {a b : Reader} (h : Same a b) : joined cn b = joined cn a := by
  unfold Reader.joined; rw [h.1, h.2]

/-- All values of the document are made of tight lines. -/
def TightDoc (doc : Doc) : Prop := ∀ x ∈ doc, ∀ o ∈ x.2, ∀ ls, o.2 = some ls → ∀ l ∈ ls, Tight l

theorem joinOpts_rawSet {os : List DocOption} (h : ∀ o ∈ os, ∀ ls, o.2 = some ls → ∀ l ∈ ls, Tight l) :
    ∀ d, joinOpts (rawSet d os) = setAll (joinOpts d) os := by
  induction os with
  | nil => intro d; rfl
  | cons o os ih =>
    intro d
    have h1 := h o (List.mem_cons_self ..)
    have h2 : (docValue o).2 = o.2.map fun ls => rstrip (joinLines ls) := by
      unfold docValue
      cases ho : o.2 with
      | none => rfl
      | some ls => simp only [Option.map_some]; rw [rstrip_joinLines (h1 ls ho)]
    change joinOpts (rawSet (Dict.set d o.1 o.2) os) = setAll (Dict.set (joinOpts d) (docValue o).1 (docValue o).2) os
    rw [ih fun o' ho' => h o' (List.mem_cons_of_mem _ ho'), h2]
    congr 1
    exact (Dict.set_mapVals (fun v : RawLines => v.map fun ls => rstrip (joinLines ls)) d o.1 o.2).symm

theorem joined_putAll {doc : Doc} (h : TightDoc doc) : ∀ r : Reader, joined cn (putAll cn doc r) = doc.onto (joined cn r) := by
  induction doc with
  | nil => intro r; rfl
  | cons x doc ih =>
    intro r
    have h1 := h x (List.mem_cons_self ..)
    change joined cn (putAll cn doc (r.putCur cn x.1 (rawSet (r.cur cn x.1) x.2))) = Doc.onto doc
      (if x.1 = cn then { joined cn r with common := setAll (joined cn r).common x.2 }
       else
        { joined cn r with
          sections := Dict.set (joined cn r).sections x.1 (setAll ((Dict.get? (joined cn r).sections x.1).getD []) x.2) })
    rw [ih fun y hy => h y (List.mem_cons_of_mem _ hy)]
    congr 1
    unfold putCur cur
    by_cases hx : x.1 = cn
    · rw [if_pos hx, if_pos hx, if_pos hx]
      unfold joined
      dsimp only
      rw [joinOpts_rawSet h1]
    · rw [if_neg hx, if_neg hx, if_neg hx]
      unfold joined
      dsimp only
      rw [← Dict.set_mapVals joinOpts, joinOpts_rawSet h1, Dict.get?_mapVals joinOpts]
      cases Dict.get? r.sections x.1 <;> rfl

theorem MoreLines.tight {i : Nat} {ls vs : List Str} (h : MoreLines i ls vs) : ∀ v ∈ vs, Tight v := by
  induction h with
  | nil => intro v hv; cases hv
  | comment _ _ ih => exact ih
  | blank _ _ ih =>
    intro v hv
    rcases List.mem_cons.1 hv with rfl | hv
    · exact ⟨fun c hc => by simp at hc, fun c hc => by simp at hc⟩
    · exact ih v hv
  | text _ _ _ ht _ _ _ _ ih =>
    intro v hv
    rcases List.mem_cons.1 hv with rfl | hv
    · exact ht
    · exact ih v hv

theorem BodyText.tight {ds : List Char} {i : Nat} {ls : List Str} {os : List DocOption} (h : BodyText ds i ls os) :
    ∀ o ∈ os, ∀ ls, o.2 = some ls → ∀ l ∈ ls, Tight l := by
  induction h with
  | nil => intro o ho; cases ho
  | cons ho _ ih =>
    intro o hm
    rcases List.mem_cons.1 hm with rfl | hm
    · intro vs hvs l hl
      cases ho with
      | value h1 h2 =>
        cases hvs
        rcases List.mem_cons.1 hl with rfl | hl
        · cases h1; assumption
        · exact MoreLines.tight h2 l hl
      | bare => cases hvs
    · exact ih o hm

theorem SectionsText.tight {ds : List Char} {ls : List Str} {doc : Doc} (h : SectionsText ds ls doc) : TightDoc doc := by
  induction h with
  | nil => intro x hx; cases hx
  | cons _ _ hb _ ih =>
    intro x hx
    rcases List.mem_cons.1 hx with rfl | hx
    · exact BodyText.tight hb
    · exact ih x hx

/-! ### Lines are lines -/

theorem oneLine_append {a b : Str} : OneLine (a ++ b) ↔ OneLine a ∧ OneLine b := by
  unfold OneLine; simp only [List.mem_append]
  constructor
  · rintro ⟨h1, h2⟩
    exact ⟨⟨fun h => h1 (.inl h), fun h => h2 (.inl h)⟩, fun h => h1 (.inr h), fun h => h2 (.inr h)⟩
  · rintro ⟨⟨h1, h2⟩, h3, h4⟩
    exact ⟨fun h => h.elim h1 h3, fun h => h.elim h2 h4⟩

theorem oneLine_cons {c : Char} {b : Str} : OneLine (c :: b) ↔ (c ≠ '\n' ∧ c ≠ '\r') ∧ OneLine b := by
  unfold OneLine; simp only [List.mem_cons]
  constructor
  · rintro ⟨h1, h2⟩
    exact ⟨⟨fun h => h1 (.inl h.symm), fun h => h2 (.inl h.symm)⟩, fun h => h1 (.inr h), fun h => h2 (.inr h)⟩
  · rintro ⟨⟨h1, h2⟩, h3, h4⟩
    exact ⟨fun h => h.elim (fun e => h1 e.symm) h3, fun h => h.elim (fun e => h2 e.symm) h4⟩

theorem Blanks.oneLine {w : Str} (h : Blanks w) : OneLine w := ⟨fun hm => (h _ hm).2.1 rfl, fun hm => (h _ hm).2.2 rfl⟩

theorem CommentLine.oneLine {l : Str} (h : CommentLine l) : OneLine l := by
  cases h with
  | mk hw hc ht =>
    rw [oneLine_append, oneLine_cons]
    exact ⟨Blanks.oneLine hw, by rcases hc with rfl | rfl <;> decide, ht⟩

theorem SkipLine.oneLine {l : Str} (h : SkipLine l) : OneLine l := h.elim CommentLine.oneLine Blanks.oneLine

theorem OptionLine.oneLine {ds : List Char} (hds : ∀ d ∈ ds, ¬ White d) {i : Nat} {l k : Str} {v : Option Str}
    (h : OptionLine ds i l k v) : OneLine l := by
  cases h with
  | value hw _ hk ha hd hb _ hv he =>
    simp only [oneLine_append, oneLine_cons]
    refine ⟨⟨⟨⟨⟨Blanks.oneLine hw, hk.oneLine⟩, Blanks.oneLine ha⟩, ⟨?_, ?_⟩, Blanks.oneLine hb⟩, hv⟩, Blanks.oneLine he⟩
    · rintro rfl; exact hds _ hd ((Props.isSpace_iff _).1 (by decide))
    · rintro rfl; exact hds _ hd ((Props.isSpace_iff _).1 (by decide))
  | bare hw _ hk he =>
    simp only [oneLine_append]
    exact ⟨⟨Blanks.oneLine hw, hk.oneLine⟩, Blanks.oneLine he⟩

theorem MoreLines.oneLine {i : Nat} {ls vs : List Str} (h : MoreLines i ls vs) : ∀ l ∈ ls, OneLine l := by
  induction h with
  | nil => intro v hv; cases hv
  | comment hc _ ih =>
    intro v hv
    rcases List.mem_cons.1 hv with rfl | hv
    · exact CommentLine.oneLine hc
    · exact ih v hv
  | blank hb _ ih =>
    intro v hv
    rcases List.mem_cons.1 hv with rfl | hv
    · exact Blanks.oneLine hb
    · exact ih v hv
  | text hw _ _ _ ht _ he _ ih =>
    intro v hv
    rcases List.mem_cons.1 hv with rfl | hv
    · simp only [oneLine_append]; exact ⟨⟨Blanks.oneLine hw, ht⟩, Blanks.oneLine he⟩
    · exact ih v hv

theorem BodyText.oneLine {ds : List Char} (hds : ∀ d ∈ ds, ¬ White d) {i : Nat} {ls : List Str} {os : List DocOption}
    (h : BodyText ds i ls os) : ∀ l ∈ ls, OneLine l := by
  induction h with
  | nil => intro o ho; cases ho
  | cons ho _ ih =>
    intro l hl
    rcases List.mem_append.1 hl with hl | hl
    · cases ho with
      | value h1 h2 =>
        rcases List.mem_cons.1 hl with rfl | hl
        · exact OptionLine.oneLine hds h1
        · exact MoreLines.oneLine h2 l hl
      | bare h1 h2 =>
        rcases List.mem_cons.1 hl with rfl | hl
        · exact OptionLine.oneLine hds h1
        · exact SkipLine.oneLine (h2 l hl)
    · exact ih l hl

theorem HeaderLine.oneLine {n l : Str} (h : HeaderLine n l) : OneLine l := by
  cases h with
  | mk _ h1 h2 _ =>
    simp only [List.cons_append, oneLine_append, oneLine_cons]
    exact ⟨by decide, h1, by decide, h2⟩

theorem SectionsText.oneLine {ds : List Char} (hds : ∀ d ∈ ds, ¬ White d) {ls : List Str} {doc : Doc}
    (h : SectionsText ds ls doc) : ∀ l ∈ ls, OneLine l := by
  induction h with
  | nil => intro x hx; cases hx
  | cons hh hsk hb _ ih =>
    intro l hl
    simp only [List.mem_append, List.mem_cons, List.cons_append] at hl
    rcases hl with rfl | (hl | hl) | hl
    · exact HeaderLine.oneLine hh
    · exact SkipLine.oneLine (hsk l hl)
    · exact BodyText.oneLine hds hb l hl
    · exact ih l hl

/-! ### Files -/

theorem joinDict_joinOpts (d : Dict Str RawLines) : joinOpts (joinDict d) = joinOpts d := by
  unfold joinOpts joinDict
  rw [List.map_map]
  refine List.map_congr_left fun kv _ => ?_
  obtain ⟨k, v⟩ := kv
  cases v with
  | none => rfl
  | some ls => simp only [Function.comp, Option.map_some, joinLines, rstrip_idem]

theorem joinDict_cfg (d : Dict Str RawLines) : ((joinDict d).map fun kv => (kv.1, kv.2.map joinLines)) = joinOpts d := by
  unfold joinOpts joinDict
  rw [List.map_map]
  refine List.map_congr_left fun kv _ => ?_
  obtain ⟨k, v⟩ := kv
  cases v with
  | none => rfl
  | some ls => rfl

/-- The state between two files. -/
structure Settled (cn : Str) (r : Reader) : Prop where
  cfg : r.cfg cn = joined cn r
  noCommon : Dict.mem r.sections cn = false

theorem settled_empty : Settled cn {} := ⟨rfl, rfl⟩

theorem settled_file (D : List Str) (text : Str) {r : Reader}
    (hk : ∀ r', (lines cn D (linesOf (universalNewlines text)) { sections := r.sections, common := r.common }).2 = r' →
      Dict.mem r'.sections cn = false) :
    Settled cn (r.file cn D text).2 ∧ joined cn (r.file cn D text).2 =
      joined cn (lines cn D (linesOf (universalNewlines text)) { sections := r.sections, common := r.common }).2 := by
  have key : ∀ q : Reader, Dict.mem q.sections cn = false →
      let q' : Reader := { sections := q.sections.map fun sd => (sd.1, joinDict sd.2), common := joinDict q.common }
      Settled cn q' ∧ joined cn q' = joined cn q := by
    intro q hq q'
    have e2 : joined cn q' = joined cn q := by
      unfold joined
      simp only [q', List.map_map, joinDict_joinOpts, Function.comp_def]
    refine ⟨⟨?_, ?_⟩, e2⟩
    · rw [e2]
      unfold cfg joined
      simp only [q', List.map_map, joinDict_cfg, Function.comp_def]
    · simp only [q', Dict.mem]
      rw [Dict.get?_mapVals joinDict]
      unfold Dict.mem at hq
      cases hx : Dict.get? q.sections cn with
      | none => rfl
      | some d => rw [hx] at hq; cases hq
  have := key _ (hk _ rfl)
  unfold file
  dsimp only
  cases (lines cn D (linesOf (universalNewlines text)) { sections := r.sections, common := r.common }).1 <;> exact this

theorem putAll_noCommon (doc : Doc) : ∀ {r : Reader}, Dict.mem r.sections cn = false →
    Dict.mem (putAll cn doc r).sections cn = false := by
  induction doc with
  | nil => intro r h; exact h
  | cons x doc ih => intro r h; exact ih (putCur_common h _ _)

/-- Reading one file that says `doc`. -/
theorem file_says {ds : List Char} (hne : ds ≠ []) (hds : ∀ d ∈ ds, ¬ White d) {text : Str} {doc : Doc}
    (h : Says ds text doc) (hst : doc.Strict) {r : Reader} (hr : Settled cn r) :
    ∃ r', r.file cn (ds.map fun c => [c]) text = (none, r') ∧ Settled cn r' ∧ r'.cfg cn = doc.onto (r.cfg cn) := by
  obtain ⟨skip, ls, h1, h2, h3⟩ := h
  have hl : linesOf (universalNewlines text) = skip ++ ls := by
    refine linesOf_text h3 fun l hl => ?_
    rcases List.mem_append.1 hl with hl | hl
    · exact SkipLine.oneLine (h1 l hl)
    · exact SectionsText.oneLine hds h2 l hl
  obtain ⟨q, q1, q2⟩ := lines_doc (cn := cn) hne hds h2 { sections := r.sections, common := r.common } hr.noCommon hst
    (by intro x hx; cases hx)
  have hlines : lines cn (ds.map fun c => [c]) (linesOf (universalNewlines text))
      { sections := r.sections, common := r.common } = (none, q) := by
    rw [hl, lines_append, lines_skip _ h1 _ (by intro s k h; cases h)]
    exact q1
  have hq : Dict.mem q.sections cn = false := by
    rw [q2.data.sections]; exact putAll_noCommon doc hr.noCommon
  obtain ⟨a1, a2⟩ := settled_file (cn := cn) (ds.map fun c => [c]) text (r := r) (by intro r' h; rw [← h, hlines]; exact hq)
  refine ⟨_, Prod.ext ?_ rfl, a1, ?_⟩
  · unfold file
    dsimp only
    rw [hlines]
    dsimp only
    rw [q2.bad]
    rfl
  · rw [a1.cfg, a2, hlines, hr.cfg]
    dsimp only
    rw [q2.data.joined, joined_putAll (SectionsText.tight h2)]
    rfl

end Reader
end CPE
