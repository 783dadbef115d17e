import Verif.Model.Write
import Verif.Props.Unrolled
/-
C59: `write` puts the text of `unroll_to_str` into the file, or nothing at all.
-/
namespace CPE.Props
open Spec
variable {δ ω : Type} {K : Env δ ω} {n m : Nat} {f : Full δ ω}

/-- C59: when `unroll_to_str` gives a text, `write` appends exactly that text to the file and returns 0; when it raises,
`write` raises the same and nothing is written. The object is left as `unroll_to_str` leaves it. -/
theorem C59_write (fs : FS) (sec : Option Str) (sp base : Bool) (old : Str) :
    (∀ text, ((FOp.unroll sec sp base).exec K n fs f).1 = .ok (.text text) →
      f.write K n fs (some ⟨old, none⟩) sec sp base =
        (.ok 0, some ⟨old ++ text, none⟩, ((FOp.unroll sec sp base).exec K n fs f).2)) ∧
    ∀ e, ((FOp.unroll sec sp base).exec K n fs f).1 = .exc e →
      f.write K n fs (some ⟨old, none⟩) sec sp base =
        (.exc e, some ⟨old, none⟩, ((FOp.unroll sec sp base).exec K n fs f).2) := by
  unfold Full.write FOp.exec
  cases hu : f.unroll K n fs sec sp base with
  | mk r f' =>
    cases r <;> simp +contextual [Out.map', Stream.write, hu, eq_comm]

/-- C59: something that is not a file: TypeError, at every level, and the object is not changed. A file that refuses to
be written: its exception, unless `unroll_to_str` raises first; nothing is written. -/
theorem C59_not_written (fs : FS) (sec : Option Str) (sp base : Bool) :
    f.write K n fs none sec sp base = (.exc .typeError, none, f) ∧
    ∀ old e, (∀ text, ((FOp.unroll sec sp base).exec K n fs f).1 = .ok (.text text) →
        (f.write K n fs (some ⟨old, some e⟩) sec sp base).1 = .exc e) ∧
      (∀ e', ((FOp.unroll sec sp base).exec K n fs f).1 = .exc e' →
        (f.write K n fs (some ⟨old, some e⟩) sec sp base).1 = .exc e') ∧
      (f.write K n fs (some ⟨old, some e⟩) sec sp base).2 =
        (some ⟨old, some e⟩, ((FOp.unroll sec sp base).exec K n fs f).2) := by
  constructor
  · unfold Full.write fireEvent
    rw [if_pos (show f.level ≥ Event.catastrophic.levelReq from Nat.zero_le _)]
  · intro old e
    unfold Full.write FOp.exec
    cases hu : f.unroll K n fs sec sp base with
    | mk r f' =>
      cases r <;> simp +contextual [Out.map', Stream.write, hu, eq_comm]

/-- C59: a file that `write` has filled, read by a new object, has the sections of the original, each resolved as before
(values that are missing are then empty). -/
theorem C59_read_back {fs : FS} {ps : List Str} (hf : f.files = some ps) (sp : Bool) {s' : Stream} {f' : Full δ ω}
    (h : f.write K n fs (some ⟨[], none⟩) none sp true = (.ok 0, some s', f'))
    (hplain : ∀ c, ((newOn ps).configdata fs).1 = .ok c → ∀ s ∈ c.sectionNames, ∀ d, Resolved (baseEnv c 0) s d →
      PlainOptions d)
    {fs' : FS} {p : Str} (hp : fs' p = .file s'.content) :
    f' = f ∧ ∃ c c', ((newOn ps).configdata fs).1 = .ok c ∧ ((newOn [p]).configdata fs').1 = .ok c' ∧
      c'.sectionNames = c.sectionNames ∧
      ∀ s ∈ c.sectionNames, ∃ d, Resolved (baseEnv c 0) s d ∧ Resolved (baseEnv c' 0) s (fillIn d) ∧
        (c.sectionNames.length + 3 ≤ m →
          ((FOp.ed (.get s)).exec baseClass m fs' (newOn [p])).1 = .ok (.ed (.opts (fillIn d)))) := by
  obtain ⟨h1, h2⟩ := C59_write (K := K) (n := n) (f := f) fs none sp true []
  cases hu : ((FOp.unroll none sp true).exec K n fs f).1 with
  | ok v =>
    have : ∃ text, v = .text text := by
      change Out.map' FVal.text (f.unroll K n fs none sp true).1 = _ at hu
      cases hr : (f.unroll K n fs none sp true).1 with
      | ok t => rw [hr] at hu; cases hu; exact ⟨t, rfl⟩
      | exc e => rw [hr] at hu; cases hu
      | diverge => rw [hr] at hu; cases hu
    obtain ⟨text, rfl⟩ := this
    rw [h1 text hu] at h
    cases h
    exact ⟨C28_base_class_unroll fs none sp, C27_round_trip hf sp hu hplain hp⟩
  | exc e => rw [h2 e hu] at h; cases h
  | diverge =>
    exfalso
    unfold Full.write at h
    change Out.map' FVal.text (f.unroll K n fs none sp true).1 = _ at hu
    cases hr : f.unroll K n fs none sp true with
    | mk r f1 =>
      rw [hr] at h hu
      cases r <;> cases hu
      cases h

/-- C59: writing to the file that the object reads, after opening it for writing has emptied it: the file then holds a
line end and nothing else, whatever the object has loaded before. -/
theorem C59_own_file {fs : FS} {p : Str} (hf : f.files = some [p]) (hp : fs p = .file []) (sp : Bool) :
    f.write K n fs (some ⟨[], none⟩) none sp true = (.ok 0, some ⟨py!"\n", none⟩, f) := by
  have hu : f.unroll K n fs none sp true = (.ok py!"\n", f) := by
    unfold Full.unroll
    rw [if_pos rfl, hf]
    dsimp only
    have : (((Full.new baseClass ()).setFiles (.many ([p].map some))).2.unrollSelf baseClass n fs none sp).1 =
        .ok py!"\n" := by
      have hl : loadFiles fs (some [p]) [['='], [':']] = (.ok emptyCfg, some emptyCfg) := by
        simp [loadFiles, readFiles, hp, FNode.isFile]
        rfl
      simp [Full.unrollSelf, Full.setFiles, Full.assignFiles, pathPrefix, Full.new, Full.configdata, Full.delimiters]
      rw [hl]
      rfl
    rw [this]
  unfold Full.write
  rw [hu]
  rfl

open UnrollExample in
/-- The text of the example, written to a file that has something in it already. -/
example : (on py!"in.ini").write Example.env 9 disk (some ⟨py!"# made by me\n", none⟩) none true true =
    (.ok 0, some ⟨py!"# made by me\n" ++ outText, none⟩, on py!"in.ini") :=
  (C59_write (K := Example.env) (n := 9) disk none true true py!"# made by me\n").1 _ (gives true rfl)

open UnrollExample in
/-- A section that is missing: KeyError, and the file is as before; with the class's own parser the level is then 0. -/
example : ((on py!"in.ini").write Example.env 9 disk (some ⟨py!"x", none⟩) (some py!"C") true true).1 = .exc .keyError ∧
    ((on py!"in.ini").write Example.env 9 disk (some ⟨py!"x", none⟩) (some py!"C") true true).2.1 = some ⟨py!"x", none⟩ ∧
    ((on py!"in.ini").write Example.env 9 disk (some ⟨py!"x", none⟩) (some py!"C") true false).2.2.level = 0 ∧
    ((on py!"in.ini").write Example.env 9 disk (some ⟨py!"x", some .valueError⟩) none true true).1 = .exc .valueError := by
  decide +kernel

open UnrollExample in
example := C59_read_back (m := 9) (K := Example.env) (n := 9) (f := on py!"in.ini") rfl true
  ((C59_write (K := Example.env) (n := 9) disk none true true []).1 _ (gives true rfl)) plain (fs' := disk)
  (p := py!"out.ini") rfl

end CPE.Props
