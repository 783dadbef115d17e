import Verif.Props.IniText
/-
C91: how the sections are spread over the files.
-/
namespace CPE.Props
open CPE CPE.Spec
variable {δ ω : Type}

/-- The files of both lists say the same sections in the same order, however they are spread over the files. -/
def SameSections (fs : FS) (ds : List Char) (ps ps' : List Str) : Prop :=
  ∃ docs docs', FilesSay fs ds ps docs ∧ FilesSay fs ds ps' docs' ∧ docs.flatten = docs'.flatten

/-- Operations that assign neither the files nor the delimiters. `unroll_to_str` with the parser of the base class reads
the files with the default delimiters, so these have to be the ones in use. -/
inductive Asks (ds : List Char) : FOp → Prop
  | level (i : Int) : Asks ds (.level i)
  | configdata : Asks ds .configdata
  | lastResult : Asks ds .lastResult
  | ed (op : EdOp) : Asks ds (.ed op)
  | unroll (sec : Option Str) (sp : Bool) : Asks ds (.unroll sec sp false)
  | unrollBase (sec : Option Str) (sp : Bool) : ds = ['=', ':'] → Asks ds (.unroll sec sp true)

theorem foldl_onto (docs : List Doc) : ∀ c : Cfg, docs.foldl (fun c doc => doc.onto c) c = Doc.onto docs.flatten c := by
  induction docs with
  | nil => exact fun _ => rfl
  | cons d docs ih =>
    intro c
    rw [List.foldl_cons, ih, List.flatten_cons]
    unfold Doc.onto
    rw [List.foldl_append]

theorem load_says {fs : FS} {ds : List Char} (hne : ds ≠ []) (hds : ∀ d ∈ ds, ¬ White d) {ps : List Str} (hps : ps ≠ []) {docs : List Doc}
    (h : FilesSay fs ds ps docs) : ∃ c : Cfg, c = Doc.onto docs.flatten { sections := [], commonName := common } ∧
      loadFiles fs (some ps) (ds.map fun c => [c]) = (.ok c, some c) := by
  obtain ⟨r, h1, h2⟩ := readFiles_say hne hds h Reader.settled_empty
  refine ⟨r.cfg commonSectionName, h2.trans (foldl_onto docs _), ?_⟩
  cases ps with
  | nil => exact absurd rfl hps
  | cons p ps => simp only [loadFiles, filesSay_isFile h, Bool.true_eq_false, if_false, h1]

section
variable {fs : FS} {ds : List Char} {ps ps' : List Str}

theorem load_split (hne : ds ≠ []) (hds : ∀ d ∈ ds, ¬ White d) (hps : ps ≠ []) (hps' : ps' ≠ []) (h : SameSections fs ds ps ps') :
    loadFiles fs (some ps') (ds.map fun c => [c]) = loadFiles fs (some ps) (ds.map fun c => [c]) := by
  obtain ⟨docs, docs', h1, h2, h3⟩ := h
  obtain ⟨c, e1, e2⟩ := load_says hne hds hps h1
  obtain ⟨c', e1', e2'⟩ := load_says hne hds hps' h2
  rw [e2, e2', e1, e1', h3]

/-- The object with the other files. -/
def Full.on (ps : List Str) (f : Full δ ω) : Full δ ω := { f with files := some ps }

/-- An operation does the same on both objects, and keeps files and delimiters. -/
def Agrees {α : Type} (ps ps' : List Str) (m : Full δ ω → Out α × Full δ ω) (f : Full δ ω) : Prop :=
  m (Full.on ps' f) = ((m f).1, Full.on ps' (m f).2) ∧ (m f).2.files = some ps ∧ (m f).2.delims = f.delims

theorem configdata_split {f : Full δ ω} (hf : f.files = some ps)
    (hl : loadFiles fs (some ps') f.delimiters = loadFiles fs (some ps) f.delimiters) :
    Agrees ps ps' (Full.configdata fs) f := by
  unfold Agrees Full.configdata
  have e : (Full.on ps' f).cfg = f.cfg := rfl
  rw [e]
  cases f.cfg with
  | some c => exact ⟨rfl, hf, rfl⟩
  | none =>
    have e1 : (Full.on ps' f).files = some ps' := rfl
    have e2 : (Full.on ps' f).delimiters = f.delimiters := rfl
    dsimp only
    rw [e1, e2, hl, hf]
    exact ⟨rfl, rfl, rfl⟩

theorem missing_some (K : Env δ ω) (op : EdOp) (c : Cfg) {f : Full δ ω} (hf : f.files = some ps) (r : Out (EdVal δ)) : f.missing K op c r = r := by
  unfold Full.missing
  rw [hf]

theorem runOp_split (K : Env δ ω) (n : Nat) (op : EdOp) {f : Full δ ω} (hf : f.files = some ps)
    (hl : loadFiles fs (some ps') f.delimiters = loadFiles fs (some ps) f.delimiters) :
    Agrees ps ps' (Full.runOp K n fs op) f := by
  obtain ⟨h1, h2, h3⟩ := configdata_split hf hl
  have e : (Full.on ps' f).cfg = f.cfg := rfl
  have eo : (Full.on ps' f).obj = f.obj := rfl
  have ee : ∀ c, (Full.on ps' f).env K c = f.env K c := fun _ => rfl
  unfold Agrees Full.runOp
  rw [e, eo]
  simp only [ee]
  cases f.cfg with
  | some c =>
    dsimp only
    rw [missing_some K op c hf, missing_some K op c (f := Full.on ps' f) rfl]
    exact ⟨rfl, hf, rfl⟩
  | none =>
    dsimp only
    generalize op.touch (f.env K emptyCfg) f.obj = t
    obtain ⟨x, o⟩ := t
    cases x with
    | exc e => exact ⟨rfl, hf, rfl⟩
    | diverge => exact ⟨rfl, hf, rfl⟩
    | ok b =>
      cases b with
      | false => exact ⟨rfl, hf, rfl⟩
      | true =>
        dsimp only
        rw [h1]
        revert h2 h3
        generalize Full.configdata fs f = y
        obtain ⟨y1, y2⟩ := y
        intro h2 h3
        cases y1 <;> exact ⟨rfl, h2, h3⟩

theorem unrollSelf_split (K : Env δ ω) (n : Nat) (sec : Option Str) (sp : Bool) {f : Full δ ω} (hf : f.files = some ps)
    (hl : loadFiles fs (some ps') f.delimiters = loadFiles fs (some ps) f.delimiters) :
    Agrees ps ps' (Full.unrollSelf K n fs sec sp) f := by
  obtain ⟨h1, h2, h3⟩ := configdata_split (f := { f with level := 0 }) hf hl
  unfold Agrees Full.unrollSelf
  have e : ({ Full.on ps' f with level := 0 } : Full δ ω) = Full.on ps' { f with level := 0 } := rfl
  have el : (Full.on ps' f).level = f.level := rfl
  dsimp only
  rw [e, h1, el]
  revert h2 h3
  generalize Full.configdata fs { f with level := 0 } = y
  obtain ⟨y1, y2⟩ := y
  intro h2 h3
  cases y1 with
  | exc e => exact ⟨rfl, h2, h3⟩
  | diverge => exact ⟨rfl, h2, h3⟩
  | ok c =>
    have eo : (Full.on ps' y2).obj = y2.obj := rfl
    have ee : (Full.on ps' y2).env K c = y2.env K c := rfl
    dsimp only
    rw [eo, ee]
    generalize unrollBody (y2.env K c) n sec sp y2.obj = z
    obtain ⟨z1, z2⟩ := z
    cases z1 <;> exact ⟨rfl, h2, h3⟩

theorem pathPrefix_some (ps : List Str) : pathPrefix (ps.map some) = (ps, true) := by
  induction ps with
  | nil => rfl
  | cons p ps ih => rw [List.map_cons, pathPrefix, ih]

theorem base_split (n : Nat) (sec : Option Str) (sp : Bool)
    (hl : loadFiles fs (some ps') [['='], [':']] = loadFiles fs (some ps) [['='], [':']]) :
    (((Full.new baseClass ()).setFiles (.many (ps'.map some))).2.unrollSelf baseClass n fs sec sp).1 =
      (((Full.new baseClass ()).setFiles (.many (ps.map some))).2.unrollSelf baseClass n fs sec sp).1 := by
  have e : ∀ qs : List Str, ((Full.new baseClass ()).setFiles (.many (qs.map some))).2 = Full.on qs (Full.new baseClass ()) := by
    intro qs
    unfold Full.setFiles Full.assignFiles
    dsimp only
    rw [pathPrefix_some]
    rfl
  rw [e, e]
  have h := (unrollSelf_split (fs := fs) (ps := ps) (ps' := ps') baseClass n sec sp (f := Full.on ps (Full.new baseClass ())) rfl hl).1
  have h' := congrArg Prod.fst h
  exact h'

/-- C91: two objects that differ only in how the same sections are spread over their files answer every operation
alike, and differ in nothing else afterwards. -/
theorem C91_operation (K : Env δ ω) (n : Nat) {f : Full δ ω} (hd : Delims f ds) (hf : f.files = some ps) (hps : ps ≠ []) (hps' : ps' ≠ [])
    (h : SameSections fs ds ps ps') {op : FOp} (ha : Asks ds op) :
    op.exec K n fs { f with files := some ps' } = ((op.exec K n fs f).1, { (op.exec K n fs f).2 with files := some ps' }) ∧
      (op.exec K n fs f).2.files = some ps ∧ (op.exec K n fs f).2.delims = f.delims := by
  have hl := load_split hd.nonempty hd.notBlank hps hps' h
  have hl' : loadFiles fs (some ps') f.delimiters = loadFiles fs (some ps) f.delimiters := by rw [hd.eq]; exact hl
  cases ha with
  | level i => exact ⟨rfl, hf, rfl⟩
  | lastResult => exact ⟨rfl, hf, rfl⟩
  | configdata =>
    obtain ⟨h1, h2, h3⟩ := configdata_split hf hl'
    refine ⟨?_, h2, h3⟩
    show (Out.map' FVal.cfg (Full.configdata fs (Full.on ps' f)).1, (Full.configdata fs (Full.on ps' f)).2) = _
    rw [h1]; rfl
  | ed op =>
    obtain ⟨h1, h2, h3⟩ := runOp_split K n op hf hl'
    refine ⟨?_, h2, h3⟩
    show (Out.map' FVal.ed (Full.runOp K n fs op (Full.on ps' f)).1, (Full.runOp K n fs op (Full.on ps' f)).2) = _
    rw [h1]; rfl
  | unroll sec sp =>
    obtain ⟨h1, h2, h3⟩ := unrollSelf_split K n sec sp hf hl'
    refine ⟨?_, h2, h3⟩
    show (Out.map' FVal.text (Full.unrollSelf K n fs sec sp (Full.on ps' f)).1, (Full.unrollSelf K n fs sec sp (Full.on ps' f)).2) = _
    rw [h1]; rfl
  | unrollBase sec sp hds =>
    subst hds
    have hb := base_split (fs := fs) (ps := ps) (ps' := ps') n sec sp hl
    simp only [FOp.exec, Full.unroll, if_true, hf]
    rw [hb]
    refine ⟨rfl, ?_, ?_⟩ <;> trivial

/-- C91: and so in every history of such operations, as long as the files of both lists say the same. -/
theorem C91_history (K : Env δ ω) (n : Nat) (hps : ps ≠ []) (hps' : ps' ≠ []) (H : List (FS × FOp)) :
    ∀ {f : Full δ ω}, Delims f ds → f.files = some ps → (∀ x ∈ H, SameSections x.1 ds ps ps' ∧ Asks ds x.2) →
      FOp.run K n H { f with files := some ps' } = ((FOp.run K n H f).1, { (FOp.run K n H f).2 with files := some ps' }) := by
  induction H with
  | nil => intro f _ _ _; rfl
  | cons x H ih =>
    obtain ⟨fs, op⟩ := x
    intro f hd hf hH
    obtain ⟨hs, ha⟩ := hH (fs, op) (.head _)
    obtain ⟨h1, h2, h3⟩ := C91_operation K n hd hf hps hps' hs ha
    have hd' : Delims (op.exec K n fs f).2 ds := ⟨by
      have := hd.eq
      unfold Full.delimiters at this ⊢
      rw [h3]; exact this, hd.nonempty, hd.notBlank⟩
    have := ih hd' h2 fun x hx => hH x (.tail _ hx)
    simp only [FOp.run, h1, this]

end

/-! ### A concrete case -/

namespace SplitExample
open IniExample

/-- One file with two sections, and two files with one each. -/
def disk : FS := fun p =>
  if p = py!"ba" then .file text2
  else if p = py!"b" then .file py!"[B]\nnew: 1\n"
  else if p = py!"a" then .file py!"[A]\nkey: 2\n"
  else .absent

theorem same : SameSections disk ds [py!"ba"] [py!"b", py!"a"] := by
  have one : ∀ {name k v : Str} {h l : Str}, HeaderLine name h → OptionLine ds 0 l k (some v) → Says ds (h ++ '\n' :: (l ++ ['\n']))
      [(name, [(k, some [v])])] := fun {name k v h l} hh ho =>
    ⟨[], [h, l], by simp, .cons (skip := []) (ls := [l]) (ls' := []) hh (by simp) (.cons (ls' := []) (.value ho .nil) .nil) .nil, .unix (.unix .nil)⟩
  refine ⟨[doc2], [[(py!"B", [(py!"new", some [py!"1"])])], [(py!"A", [(py!"key", some [py!"2"])])]], ?_, ?_, rfl⟩
  · exact .read (text := text2) rfl says2 (by decide +kernel) .nil
  · exact .read (text := py!"[B]\nnew: 1\n") rfl (one (h := py!"[B]") (l := py!"new: 1") (header (junk := []) (by decide +kernel))
        (value (w := []) (a := []) (c := ':') (b := py!" ") (e := []) (by decide +kernel))) (by decide +kernel)
      (.read (text := py!"[A]\nkey: 2\n") rfl (one (h := py!"[A]") (l := py!"key: 2") (header (junk := []) (by decide +kernel))
        (value (w := []) (a := []) (c := ':') (b := py!" ") (e := []) (by decide +kernel))) (by decide +kernel) .nil)

/-- Both objects list the sections and unroll to the same text. -/
example : (FOp.run LifeExample.cls 9 [(disk, .ed (.getItem py!"A")), (disk, .unroll none false true)] (on [py!"b", py!"a"])).1 =
    [.ok (.ed (.opts [(py!"key", some py!"2")])), .ok (.text py!"[B]\nnew:1\n\n[A]\nkey:2\n")] := by
  have h := C91_history (ds := ds) (ps := [py!"ba"]) (ps' := [py!"b", py!"a"]) LifeExample.cls 9 (by decide) (by decide)
    [(disk, .ed (.getItem py!"A")), (disk, .unroll none false true)] (f := on [py!"ba"]) (delims _) rfl (by
      intro x hx
      rcases List.mem_cons.1 hx with rfl | hx
      · exact ⟨same, .ed _⟩
      · cases List.mem_singleton.1 hx; exact ⟨same, .unrollBase _ _ rfl⟩)
  exact (congrArg Prod.fst h).trans (by decide +kernel)

/-- The order of the files counts, for the order of the sections. -/
example : (FOp.run LifeExample.cls 9 [(disk, .unroll none false true)] (on [py!"a", py!"b"])).1 =
    [.ok (.text py!"[A]\nkey:2\n\n[B]\nnew:1\n")] := by decide +kernel

end SplitExample

end CPE.Props
