import Verif.Proofs.IniCfg
import Verif.Props.Access
import Verif.Props.Dispatch
import Verif.Model.Object
/-
What can be said about the section names of any configuration that was read from files.
-/
namespace CPE
open Spec

/-- A name that the reader can produce. -/
def NameOk (x : Str) : Prop := x ≠ [] ∧ OneLine x

theorem oneLine_of_sub {a b : Str} (h : ∀ c ∈ a, c ∈ b) (hb : OneLine b) : OneLine a :=
  ⟨fun x => hb.1 (h _ x), fun x => hb.2 (h _ x)⟩

theorem lstripBy_sub (p : Char → Bool) (s : Str) : ∀ c ∈ lstripBy p s, c ∈ s := by
  intro c hc
  unfold lstripBy at hc
  exact List.dropWhile_sublist _ |>.subset hc

theorem strip_sub (s : Str) : ∀ c ∈ strip s, c ∈ s := by
  intro c hc
  obtain ⟨a, b, h1, _⟩ := (Props.C11_strip s (strip s)).1 rfl
  rw [h1]; simp [hc]

theorem sectionHeader_ok {value name : Str} (h : sectionHeader value = some name) (ho : OneLine value) : NameOk name := by
  unfold sectionHeader at h
  split at h
  · rename_i rest
    split at h
    · rename_i x hd hw
      split at h
      · cases h
      · rename_i hne
        cases h
        refine ⟨by simpa using hne, oneLine_of_sub ?_ ho⟩
        intro c hc
        have : c ∈ rest.reverse.dropWhile (· ≠ ']') := by rw [hw]; exact List.mem_cons_of_mem _ (List.mem_reverse.1 hc)
        exact List.mem_cons_of_mem _ (List.mem_reverse.1 ((List.dropWhile_sublist _).subset this))
    · cases h
  · cases h

theorem mem_linesOf {l : Str} : ∀ {t : Str}, l ∈ linesOf t → '\n' ∉ l ∧ ∀ c ∈ l, c ∈ t := by
  intro t
  induction t generalizing l with
  | nil => intro h; cases h
  | cons c t ih =>
    intro h
    by_cases hc : c = '\n'
    · subst hc
      rw [linesOf] at h
      rcases List.mem_cons.1 h with rfl | h
      · simp
      · obtain ⟨h1, h2⟩ := ih h
        exact ⟨h1, fun x hx => List.mem_cons_of_mem _ (h2 x hx)⟩
    · rw [linesOf.eq_3 _ _ hc] at h
      split at h
      · cases List.mem_singleton.1 h
        refine ⟨by simpa using fun e => hc e.symm, by simp⟩
      · rename_i l' ls hl
        rcases List.mem_cons.1 h with rfl | h
        · obtain ⟨h1, h2⟩ := ih (l := l') (by rw [hl]; exact List.mem_cons_self ..)
          refine ⟨?_, ?_⟩
          · intro hm
            rcases List.mem_cons.1 hm with e | hm
            · exact hc e.symm
            · exact h1 hm
          · intro x hx
            rcases List.mem_cons.1 hx with e | hx
            · exact e ▸ List.mem_cons_self ..
            · exact List.mem_cons_of_mem _ (h2 x hx)
        · obtain ⟨h1, h2⟩ := ih (l := l) (by rw [hl]; exact List.mem_cons_of_mem _ h)
          exact ⟨h1, fun x hx => List.mem_cons_of_mem _ (h2 x hx)⟩

theorem not_mem_universalNewlines : ∀ (n : Nat) (t : Str), t.length ≤ n → '\r' ∉ universalNewlines t := by
  intro n
  induction n with
  | zero => intro t h; cases t with
    | nil => simp [universalNewlines]
    | cons c t => simp at h
  | succ n ih =>
    intro t h
    unfold universalNewlines
    split
    · simp
    · rename_i s
      have := ih s (by simp at h; omega)
      simp [this]
    · rename_i s _
      have := ih s (by simp at h; omega)
      simp [this]
    · rename_i c s h1 h2
      have := ih s (by simp at h; omega)
      intro hm
      rcases List.mem_cons.1 hm with e | hm
      · exact absurd e.symm (by simpa using h2)
      · exact this hm

theorem linesOf_oneLine {text l : Str} (h : l ∈ linesOf (universalNewlines text)) : OneLine l := by
  obtain ⟨h1, h2⟩ := mem_linesOf h
  exact ⟨h1, fun hm => not_mem_universalNewlines _ _ (Nat.le_refl _) (h2 _ hm)⟩

namespace Reader

/-- The names in a parser that is being filled. -/
structure NamesOk (cn : Str) (r : Reader) : Prop where
  nodup : (Dict.keys r.sections).Nodup
  names : ∀ x ∈ Dict.keys r.sections, NameOk x ∧ x ≠ cn
  cur : ∀ s, r.cursect = some s → NameOk s

variable {cn : Str} {r : Reader}

theorem NamesOk.putCur (h : NamesOk cn r) {s : Str} (hs : NameOk s) (d) : NamesOk cn (r.putCur cn s d) := by
  refine ⟨?_, ?_, by rw [putCur_cursect]; exact h.cur⟩
  · unfold Reader.putCur
    split
    · exact h.nodup
    · exact Props.nodup_set h.nodup _ _
  · unfold Reader.putCur
    split
    · exact h.names
    · rename_i hne
      intro x hx
      rw [Dict.mem_keys_set] at hx
      rcases hx with rfl | hx
      · exact ⟨hs, hne⟩
      · exact h.names x hx

theorem pending_ok (h : NamesOk cn r) {s k : Str} (hp : r.pending = some (s, k)) : NameOk s := by
  unfold pending at hp
  split at hp
  · rename_i s' k' h1 h2
    split at hp
    · cases hp
    · cases hp; exact h.cur _ h1
  · cases hp

theorem NamesOk.header (h : NamesOk cn r) {name : Str} (hn : NameOk name) : NamesOk cn (r.header cn name).2 := by
  unfold Reader.header
  split
  · split
    · exact h
    · exact ⟨h.nodup, h.names, fun s hs => by cases hs; exact hn⟩
  · split
    · exact ⟨h.nodup, h.names, fun s hs => by cases hs; exact hn⟩
    · rename_i hne
      refine ⟨Props.nodup_set h.nodup _ _, ?_, fun s hs => by cases hs; exact hn⟩
      intro x hx
      rw [Dict.mem_keys_set] at hx
      rcases hx with rfl | hx
      · exact ⟨hn, hne⟩
      · exact h.names x hx

theorem NamesOk.option (h : NamesOk cn r) {s : Str} (hs : NameOk s) (ds : List Str) (value : Str) :
    NamesOk cn (r.option cn ds s value).2 := by
  have key : ∀ (q : Reader) (k : Str) (v : Option Str), NamesOk cn q → NamesOk cn
      (if (s, some k) ∈ q.added then (some PyExc.duplicateOption, { q with optname := some k })
      else
        let q := { q with added := (s, some k) :: q.added, optname := some k }
        (none, q.putCur cn s (Dict.set (q.cur cn s) k (v.map fun v => [strip v])))).2 := by
    intro q k v hq
    split
    · exact ⟨hq.nodup, hq.names, hq.cur⟩
    · exact NamesOk.putCur (r := { q with added := (s, some k) :: q.added, optname := some k }) ⟨hq.nodup, hq.names, hq.cur⟩ hs _
  refine key _ _ _ ?_
  split
  · exact ⟨h.nodup, h.names, h.cur⟩
  · exact h

theorem NamesOk.line (h : NamesOk cn r) (ds : List Str) {l : Str} (hl : OneLine l) : NamesOk cn (r.line cn ds l).2 := by
  unfold Reader.line
  dsimp only
  split
  · exact h
  · split
    · split
      · rename_i s k hp
        split
        · exact h.putCur (pending_ok h hp) _
        · exact h
      · exact h
    · split
      · rename_i s k hp
        have hp : r.pending = some (s, k) := by
          split at hp
          · exact hp
          · cases hp
        split
        · exact h.putCur (pending_ok h hp) _
        · exact h
      · have hi : ∀ i : Nat, NamesOk cn { r with indent := i } := fun i => ⟨h.nodup, h.names, h.cur⟩
        split
        · rename_i name hn
          exact (hi _).header (sectionHeader_ok hn (oneLine_of_sub (strip_sub l) hl))
        · split
          · exact hi _
          · rename_i s hs
            exact (hi _).option (h.cur s hs) ds _

theorem NamesOk.lines (ds : List Str) : ∀ {ls : List Str} {r : Reader}, NamesOk cn r → (∀ l ∈ ls, OneLine l) →
    NamesOk cn (lines cn ds ls r).2 := by
  intro ls
  induction ls with
  | nil => intro r h _; exact h
  | cons l ls ih =>
    intro r h hl
    have h1 := h.line ds (hl l (List.mem_cons_self ..))
    rw [Reader.lines]
    cases hr : r.line cn ds l with
    | mk e r1 =>
      rw [hr] at h1
      cases e with
      | none => exact ih h1 fun x hx => hl x (List.mem_cons_of_mem _ hx)
      | some e => exact h1

theorem NamesOk.file (h : NamesOk cn r) (ds : List Str) (text : Str) : NamesOk cn (r.file cn ds text).2 := by
  have h1 : NamesOk cn { sections := r.sections, common := r.common : Reader } :=
    ⟨h.nodup, h.names, fun s hs => by cases hs⟩
  have h2 := NamesOk.lines ds h1 (ls := linesOf (universalNewlines text)) fun l hl => linesOf_oneLine hl
  have hk : ∀ D : Dict Str (Dict Str RawLines), Dict.keys (D.map fun sd => (sd.1, joinDict sd.2)) = Dict.keys D := by
    intro D; simp [Dict.keys, Function.comp_def]
  unfold Reader.file
  dsimp only
  split
  · exact ⟨by dsimp only; rw [hk]; exact h2.nodup, by dsimp only; rw [hk]; exact h2.names, fun s hs => by cases hs⟩
  · exact ⟨by dsimp only; rw [hk]; exact h2.nodup, by dsimp only; rw [hk]; exact h2.names, fun s hs => by cases hs⟩

end Reader

theorem readFiles_names {fs : FS} {ds : List Str} : ∀ {ps : List Str} {r : Reader}, Reader.NamesOk commonSectionName r →
    Reader.NamesOk commonSectionName (readFiles fs ds ps r).2 := by
  intro ps
  induction ps with
  | nil => intro r h; exact h
  | cons p ps ih =>
    intro r h
    rw [readFiles]
    split
    · rename_i text _
      have h1 := h.file ds text
      cases hr : r.file commonSectionName ds text with
      | mk e r1 =>
        rw [hr] at h1
        cases e with
        | none => exact ih h1
        | some e => exact h1
    · exact ih h

/-- The sections of a configuration that was read from files: distinct names, not empty, on one line. -/
theorem loadFiles_names {fs : FS} {files : Option (List Str)} {ds : List Str} {c : Cfg}
    (h : (loadFiles fs files ds).1 = .ok c) : c.sectionNames.Nodup ∧ c.commonName = commonSectionName ∧
      ∀ x ∈ c.sectionNames, x ≠ [] ∧ OneLine x ∧ x ≠ commonSectionName := by
  unfold loadFiles at h
  split at h
  · cases h
  · cases h
  · rename_i ps _
    split at h
    · cases h
    · have hn := readFiles_names (fs := fs) (ds := ds) (ps := ps) (r := {})
        (⟨by simp [Dict.keys], by intro x hx; simp [Dict.keys] at hx, by intro s hs; cases hs⟩)
      split at h
      · rename_i r hr
        rw [hr] at hn
        have hk : (Reader.cfg commonSectionName r).sectionNames = Dict.keys r.sections := by
          simp [Cfg.sectionNames, Reader.cfg, Dict.keys, Function.comp_def]
        cases h
        rw [hk]
        exact ⟨hn.nodup, rfl, fun x hx => ⟨(hn.names x hx).1.1, (hn.names x hx).1.2, (hn.names x hx).2⟩⟩
      · split at h <;> cases h

end CPE
