import Verif.Props.Split
import Verif.Props.SetEnvironment
import Verif.Props.EnvVars
import Verif.Model.SetEnvLife
/-
C91 for SetEnvironment.
-/
namespace CPE.Props
open CPE CPE.Spec CPE.SetEnv

/-- The object with the other files. -/
def Life.on (ps : List Str) (f : Life) : Life := { f with full := { f.full with files := some ps } }

/-- The object reads the files `ps`, with the delimiters `ds`. -/
def Life.Reads (ds : List Char) (ps : List Str) (f : Life) : Prop := Delims f.full ds ∧ f.full.files = some ps

/-- Code that does the same whether the files are `ps` or `ps'`. -/
def LifeAgrees {α : Type} (ds : List Char) (ps ps' : List Str) (m : M Life α) : Prop :=
  ∀ f, Life.Reads ds ps f → m (Life.on ps' f) = ((m f).1, Life.on ps' (m f).2) ∧ Life.Reads ds ps (m f).2

/-- Operations that assign neither the files nor the delimiters. -/
inductive LAsks (ds : List Char) : LOp → Prop
  | base {op} : Asks ds op → LAsks ds (.base op)
  | actions : LAsks ds .actions
  | setActions (v : Option Actions) : LAsks ds (.setActions v)
  | apply (s : Str) : LAsks ds (.apply s)
  | listActions (s : Str) : LAsks ds (.listActions s)
  | listVars (filter : FilterArg) (only : Option Bool) : LAsks ds (.listVars filter only)
  | script (s : Str) (hdr body sheb : Bool) (interp : Str) : LAsks ds (.script s hdr body sheb interp)
  | write (file s : Str) (hdr body sheb : Bool) (interp : Str) : LAsks ds (.write file s hdr body sheb interp)

section
variable {ds : List Char} {ps ps' : List Str} {fs : FS}

theorem agrees_pure {α : Type} (a : α) : LifeAgrees ds ps ps' (pure a) := fun _ h => ⟨rfl, h⟩

theorem agrees_bind {α β : Type} {m : M Life α} {k : α → M Life β} (hm : LifeAgrees ds ps ps' m) (hk : ∀ a, LifeAgrees ds ps ps' (k a)) :
    LifeAgrees ds ps ps' (m >>= k) := by
  intro f hf
  obtain ⟨h1, h2⟩ := hm f hf
  have hb : ∀ g, (m >>= k) g = M.bind m k g := fun _ => rfl
  rw [hb, hb]
  unfold M.bind
  rw [h1]
  revert h2
  generalize m f = x
  obtain ⟨x1, x2⟩ := x
  intro h2
  cases x1 with
  | ok a => exact hk a x2 h2
  | exc e => exact ⟨rfl, h2⟩
  | diverge => exact ⟨rfl, h2⟩

theorem agrees_read {β : Type} {k : Life → M Life β} (hk : ∀ f, LifeAgrees ds ps ps' (k f)) (he : ∀ f, k (Life.on ps' f) = k f) :
    LifeAgrees ds ps ps' (M.read >>= k) := by
  intro f hf
  have h : ∀ g, (M.read >>= k) g = k g g := fun _ => rfl
  rw [h, h, he]
  exact hk f f hf

theorem agrees_console {α : Type} (m : M Console α) : LifeAgrees ds ps ps' (onConsole m) :=
  fun _ hf => ⟨rfl, ⟨hf.1.eq, hf.1.nonempty, hf.1.notBlank⟩, hf.2⟩

theorem agrees_op (hps : ps ≠ []) (hps' : ps' ≠ []) (h : SameSections fs ds ps ps') (st : Settings) (n : Nat) {op : FOp} (ha : Asks ds op) :
    LifeAgrees ds ps ps' (onFull (op.exec (cls st) n fs)) := by
  intro f hf
  obtain ⟨h1, h2, h3⟩ := C91_operation (cls st) n hf.1 hf.2 hps hps' h ha
  refine ⟨?_, ⟨?_, hf.1.nonempty, hf.1.notBlank⟩, h2⟩
  · show ((op.exec (cls st) n fs { f.full with files := some ps' }).1, _) = _
    unfold onFull
    dsimp only [Life.on]
    rw [h1]
  · have := hf.1.eq
    unfold Full.delimiters at this ⊢
    show (op.exec (cls st) n fs f.full).2.delims.getD _ = _
    rw [h3]; exact this

theorem agrees_run (hps : ps ≠ []) (hps' : ps' ≠ []) (h : SameSections fs ds ps ps') (st : Settings) (n : Nat) (op : EdOp) (f : Life)
    (hf : Life.Reads ds ps f) : Agrees ps ps' (Full.runOp (cls st) n fs op) f.full ∧ Delims (Full.runOp (cls st) n fs op f.full).2 ds := by
  have hl : loadFiles fs (some ps') f.full.delimiters = loadFiles fs (some ps) f.full.delimiters := by
    rw [hf.1.eq]; exact load_split hf.1.nonempty hf.1.notBlank hps hps' h
  have hr := runOp_split (cls st) n op hf.2 hl
  refine ⟨hr, ?_, hf.1.nonempty, hf.1.notBlank⟩
  have := hf.1.eq
  unfold Full.delimiters at this ⊢
  rw [hr.2.2]; exact this

theorem agrees_runOp (hps : ps ≠ []) (hps' : ps' ≠ []) (h : SameSections fs ds ps ps') (st : Settings) (n : Nat) (op : EdOp) :
    LifeAgrees ds ps ps' (onFull (Full.runOp (cls st) n fs op)) := by
  intro f hf
  obtain ⟨⟨h1, h2, h3⟩, h4⟩ := agrees_run hps hps' h st n op f hf
  refine ⟨?_, h4, h2⟩
  show ((Full.runOp (cls st) n fs op (Full.on ps' f.full)).1, ({ Life.on ps' f with full := (Full.runOp (cls st) n fs op (Full.on ps' f.full)).2 } : Life)) = _
  rw [h1]
  rfl

theorem agrees_look (hps : ps ≠ []) (hps' : ps' ≠ []) (h : SameSections fs ds ps ps') (st : Settings) (n : Nat) (s : Str) :
    LifeAgrees ds ps ps' (lookForApply st n fs s) := by
  intro f hf
  obtain ⟨⟨h1, h2, h3⟩, h4⟩ := agrees_run hps hps' h st n (.getItem s) f hf
  have e : (Life.on ps' f).full = Full.on ps' f.full := rfl
  unfold lookForApply
  rw [e, h1]
  clear h1 h3
  revert h4
  revert h2
  generalize Full.runOp (cls st) n fs (.getItem s) f.full = x
  obtain ⟨x1, x2⟩ := x
  intro h2 h4
  dsimp only at h2 h4
  have a1 : (Full.on ps' x2).files ≠ none := by simp [Full.on]
  have a2 : x2.files ≠ none := by simp [h2]
  cases x1 with
  | ok v => exact ⟨rfl, h4, h2⟩
  | diverge => exact ⟨rfl, h4, h2⟩
  | exc e =>
    cases e <;> first
      | exact ⟨rfl, h4, h2⟩
      | (refine ⟨?_, h4, h2⟩
         dsimp only
         rw [if_neg a1, if_neg a2]
         rfl)

/-- C91: SetEnvironment too: what its operations give, do to the environment, write and print. -/
theorem C91_setenvironment (sys : Sys) (repr : Action → Str) (st : Settings) (n : Nat) (hps : ps ≠ []) (hps' : ps' ≠ [])
    (h : SameSections fs ds ps ps') {op : LOp} (ha : LAsks ds op) {f : Life} (hd : Delims f.full ds) (hf : f.full.files = some ps) :
    op.exec sys repr st n fs { f with full := { f.full with files := some ps' } } =
      ((op.exec sys repr st n fs f).1,
        { (op.exec sys repr st n fs f).2 with full := { (op.exec sys repr st n fs f).2.full with files := some ps' } }) ∧
      Delims (op.exec sys repr st n fs f).2.full ds ∧ (op.exec sys repr st n fs f).2.full.files = some ps := by
  have hscript : ∀ s a b c d, LifeAgrees ds ps ps' (Life.script sys st n fs s a b c d) := by
    intro s a b c d
    unfold Life.script
    refine agrees_read (fun f => ?_) fun f => rfl
    split
    · exact agrees_bind (agrees_console _) fun _ => agrees_pure _
    · dsimp only
      split
      · refine agrees_bind ?_ fun _ => agrees_bind (agrees_console _) fun _ => agrees_pure _
        unfold Life.ensureList
        refine agrees_read (fun f => ?_) fun f => rfl
        split
        · exact agrees_bind (agrees_runOp hps hps' h st n _) fun _ => agrees_pure _
        · exact agrees_pure _
      · exact agrees_pure _
  have key : LifeAgrees ds ps ps' (op.exec sys repr st n fs) := by
    cases ha with
    | base ha => exact agrees_bind (agrees_op hps hps' h st n ha) fun _ => agrees_pure _
    | actions => exact agrees_read (fun f => agrees_pure _) fun f => rfl
    | setActions v =>
      refine agrees_bind ?_ fun _ => agrees_pure _
      cases v with
      | none => exact fun f hf => ⟨rfl, hf⟩
      | some a => exact fun f hf => ⟨rfl, ⟨hf.1.eq, hf.1.nonempty, hf.1.notBlank⟩, hf.2⟩
    | apply s =>
      refine agrees_bind ?_ fun _ => agrees_pure _
      unfold Life.apply
      exact agrees_bind (agrees_look hps hps' h st n s) fun _ => agrees_read (fun f => agrees_console _) fun f => rfl
    | listActions s =>
      refine agrees_bind ?_ fun _ => agrees_pure _
      unfold Life.listActions
      exact agrees_bind (agrees_runOp hps hps' h st n _) fun _ => agrees_console _
    | listVars filter only => exact agrees_bind (agrees_console _) fun _ => agrees_pure _
    | script s a b c d => exact agrees_bind (hscript s a b c d) fun _ => agrees_pure _
    | write file s a b c d =>
      refine agrees_bind ?_ fun _ => agrees_pure _
      unfold Life.write
      refine agrees_read (fun f => ?_) fun f => rfl
      split
      · exact agrees_bind (agrees_console _) fun _ => agrees_pure _
      · refine agrees_bind (hscript s a b c d) fun t => agrees_bind ?_ fun _ => agrees_pure _
        exact fun f hf => ⟨rfl, hf⟩
  exact key f ⟨hd, hf⟩

/-- C91: and every history of such operations leaves the same environment, scripts and output. -/
theorem C91_setenvironment_history (sys : Sys) (repr : Action → Str) (st : Settings) (n : Nat) (hps : ps ≠ []) (hps' : ps' ≠ [])
    (H : List (FS × LOp)) : ∀ {f : Life}, Delims f.full ds → f.full.files = some ps → (∀ x ∈ H, SameSections x.1 ds ps ps' ∧ LAsks ds x.2) →
      LOp.run sys repr st n H { f with full := { f.full with files := some ps' } } =
        { LOp.run sys repr st n H f with full := { (LOp.run sys repr st n H f).full with files := some ps' } } := by
  induction H with
  | nil => intro f _ _ _; rfl
  | cons x H ih =>
    obtain ⟨fs, op⟩ := x
    intro f hd hf hH
    obtain ⟨hs, ha⟩ := hH (fs, op) (.head _)
    obtain ⟨h1, h2, h3⟩ := C91_setenvironment sys repr st n hps hps' hs ha hd hf
    have := ih h2 h3 fun x hx => hH x (.tail _ hx)
    simp only [LOp.run, h1, this]

end

/-! ### A concrete case -/

namespace SplitExample
open IniExample

def envDisk : FS := fun p =>
  if p = py!"both" then .file py!"[S]\nuse T\n[T]\nenvvar-set X: 1\n"
  else if p = py!"s" then .file py!"[S]\nuse T\n"
  else if p = py!"t" then .file py!"[T]\nenvvar-set X: 1\n"
  else .absent

theorem envSame : SameSections envDisk ds [py!"both"] [py!"s", py!"t"] := by
  have hS : HeaderLine py!"S" py!"[S]" := header (junk := []) (by decide +kernel)
  have hT : HeaderLine py!"T" py!"[T]" := header (junk := []) (by decide +kernel)
  have oS : BodyText ds 0 [py!"use T"] [(py!"use T", none)] :=
    .cons (ls := [py!"use T"]) (ls' := []) (.bare (bare (w := []) (e := []) (by decide +kernel)) (by simp)) .nil
  have oT : BodyText ds 0 [py!"envvar-set X: 1"] [(py!"envvar-set X", some [py!"1"])] :=
    .cons (ls := [py!"envvar-set X: 1"]) (ls' := []) (.value (value (w := []) (a := []) (c := ':') (b := py!" ") (e := []) (by decide +kernel)) .nil) .nil
  have tT : SectionsText ds [py!"[T]", py!"envvar-set X: 1"] [(py!"T", [(py!"envvar-set X", some [py!"1"])])] :=
    .cons (skip := []) (ls := [py!"envvar-set X: 1"]) (ls' := []) hT (by simp) oT .nil
  refine ⟨[[(py!"S", [(py!"use T", none)]), (py!"T", [(py!"envvar-set X", some [py!"1"])])]],
    [[(py!"S", [(py!"use T", none)])], [(py!"T", [(py!"envvar-set X", some [py!"1"])])]], ?_, ?_, rfl⟩
  · exact .read (text := py!"[S]\nuse T\n[T]\nenvvar-set X: 1\n") rfl
      ⟨[], [py!"[S]", py!"use T", py!"[T]", py!"envvar-set X: 1"], by simp, .cons (skip := []) (ls := [py!"use T"]) hS (by simp) oS tT,
        .unix (l := py!"[S]") (.unix (l := py!"use T") (.unix (l := py!"[T]") (.unix (l := py!"envvar-set X: 1") .nil)))⟩
      (by decide +kernel) .nil
  · exact .read (text := py!"[S]\nuse T\n") rfl
      ⟨[], [py!"[S]", py!"use T"], by simp, .cons (skip := []) (ls := [py!"use T"]) (ls' := []) hS (by simp) oS .nil,
        .unix (l := py!"[S]") (.unix (l := py!"use T") .nil)⟩ (by decide +kernel)
      (.read (text := py!"[T]\nenvvar-set X: 1\n") rfl
        ⟨[], _, by simp, tT, .unix (l := py!"[T]") (.unix (l := py!"envvar-set X: 1") .nil)⟩ (by decide +kernel) .nil)

/-- A SetEnvironment object on these files. -/
def lifeOn (ps : List Str) : Life :=
  let f := Life.new exampleSettings []
  { f with full := { f.full with files := some ps } }

/-- With the two files, too, `apply` sets the variable. -/
example : (LOp.run exampleSys (fun _ => []) exampleSettings 9 [(envDisk, .apply py!"S")] (lifeOn [py!"s", py!"t"])).environ = [(py!"X", py!"1")] := by
  have h := C91_setenvironment_history (ds := ds) (ps := [py!"both"]) (ps' := [py!"s", py!"t"]) exampleSys (fun _ => []) exampleSettings 9
    (by decide) (by decide) [(envDisk, .apply py!"S")] (f := lifeOn [py!"both"]) ⟨rfl, by decide, by decide +kernel⟩ rfl (by
      intro x hx
      cases List.mem_singleton.1 hx
      exact ⟨envSame, .apply _⟩)
  exact (congrArg Life.environ h).trans (by decide +kernel)

end SplitExample

end CPE.Props
