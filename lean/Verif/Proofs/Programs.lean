import Verif.Spec.Programs
/-
Lemmas about the programs load_env.py and gen_config.py.
-/
namespace CPE.Cli
open CPE CPE.KW CPE.KW.Script CPE.KW.Spec CPE.SetEnv CPE.Props
open CPE.Spec hiding Item

theorem readIni_newOn (fs : FS) (p : Str) : ((newOn [p]).configdata fs).1 = readIni fs p := rfl

theorem readIni_doc {fs : FS} {p : Str} {doc : Doc} (h : HasDoc fs p doc) : readIni fs p = .ok (confOf doc) := by
  obtain ⟨text, h1, h2, h3⟩ := h
  have hd : Delims (topNew p) ['=', ':'] := ⟨rfl, by decide, by decide⟩
  have := C42_text_is_read (K := baseClass) (n := 0) hd rfl (p := p) rfl h1 h2 h3
  change Out.map' _ ((topNew p).configdata fs).1 = _ at this
  unfold readIni
  cases hx : ((topNew p).configdata fs).1 with
  | ok c => rw [hx] at this; injection this with this; injection this with this; rw [this]; rfl
  | exc e => rw [hx] at this; cases this
  | diverge => rw [hx] at this; cases this

/-- Two files for the same option are the same. -/
theorem chosen_unique {δ ω : Type} {E : Env δ ω} {ini : Str} {resolve : Str → Str} {g : Str × Str → Option Str} {s k x y : Str}
    (h : Chosen E ini resolve g s k x) (h' : Chosen E ini resolve g s k y) : x = y := by
  rcases h with ⟨p, e, rfl⟩ | ⟨e, d, v, q, t, h1, h2, h3, h4, rfl⟩ <;> rcases h' with ⟨p', e', rfl⟩ | ⟨e', d', v', q', t', h1', h2', h3', h4', rfl⟩
  · rw [e] at e'; exact Option.some.inj e'
  · rw [e] at e'; cases e'
  · rw [e] at e'; cases e'
  · cases resolved_unique h1 h1'
    rw [h2] at h2'
    cases h2'
    rw [pointsTo_iff] at h3 h3'
    subst h3 h3'
    rw [normal_iff] at h4 h4'
    rw [h4, h4']

theorem leArgs_ok {P : Place} {fs : FS} {argv : List Str} {is : List Item} {f1 f2 f3 : Str} {doc : Doc} (hr : Reading P.neg leUsage argv is)
    (hu : Usable is) (hf : LeFiles P fs is f1 f2 f3 doc) :
    leArgs P.fuel fs P.leIni P.resolve P.neg argv = .ok (leMeaning P.resolve is, [f1, f2, f3]) := by
  obtain ⟨a1, a2, a3, e, c1, c2, c3⟩ := C72_loadenv_files (n := P.fuel) (fs := fs) (resolve := P.resolve)
    ((readIni_newOn fs P.leIni).trans (readIni_doc hf.hasDoc)) hf.fuel hf.apart hf.sections hr hu hf.names
  rw [e, chosen_unique c1 hf.systems, chosen_unique c2 hf.envs, chosen_unique c3 hf.specs]

theorem system_new (T : Tool) (b : Str) (f : Bool) :
    (∃ r l, LE.getSystemName T (LE.new b f) = (.ok r, l) ∧ l = { LE.new b f with systemName := some r } ∧ LE.getSystemName T l = (.ok r, l)) ∨
    (∃ e, LE.getSystemName T (LE.new b f) = (.exc e, LE.new b f)) ∨ LE.getSystemName T (LE.new b f) = (.diverge, LE.new b f) := by
  have hs : LE.getSystemName T (LE.new b f) =
      match (DS.systemName (cls T.systems) T.fuel T.host (DS.new (cls T.systems) b f)).1 with
      | .ok r => (.ok r, { LE.new b f with systemName := some r })
      | .exc e => (.exc e, LE.new b f)
      | .diverge => (.diverge, LE.new b f) := rfl
  rw [hs]
  cases (DS.systemName (cls T.systems) T.fuel T.host (DS.new (cls T.systems) b f)).1 with
  | ok r => exact .inl ⟨r, _, rfl, rfl, rfl⟩
  | exc e => exact .inr (.inl ⟨e, rfl⟩)
  | diverge => exact .inr (.inr rfl)

/-- The keyword parser begins with the name of the system. -/
theorem keyword_again (T : Tool) (b : Str) (f : Bool) :
    (LE.getSystemName T >>= fun _ => LE.getKeywordParser T) (LE.new b f) = LE.getKeywordParser T (LE.new b f) := by
  have h1 : ∀ l : LE, l.ekp = none → LE.getKeywordParser T l = LE.loadKeywordParser T l := by
    intro l hl
    unfold LE.getKeywordParser
    rw [M.read_bind, hl]
  rw [h1 _ rfl]
  unfold LE.loadKeywordParser
  rcases system_new T b f with ⟨r, l, e1, e2, e3⟩ | ⟨e, e1⟩ | e1
  · rw [M.bind_ok e1, M.bind_ok e1, h1 l (by rw [e2]; rfl)]
    unfold LE.loadKeywordParser
    rw [M.bind_ok e3]
  · rw [M.bind_exc e1, M.bind_exc e1]
  · rw [M.bind_def, M.bind_def, e1]

theorem parsed_again (T : Tool) (b : Str) (f : Bool) :
    (LE.getSystemName T >>= fun _ => LE.getParsedEnvName T) (LE.new b f) = LE.getParsedEnvName T (LE.new b f) := by
  have hk := keyword_again T b f
  have h1 : ∀ l : LE, l.parsed = none → LE.getParsedEnvName T l = (LE.getKeywordParser T >>= fun k => fun l =>
      match EKP.qualifiedEnvName (cls T.envs) T.fuel T.host k with
      | (.ok q, k') => (.ok q, { l with ekp := some k', parsed := some q })
      | (.exc e, k') => (.exc e, { l with ekp := some k' })
      | (.diverge, k') => (.diverge, { l with ekp := some k' })) l := by
    intro l hl
    unfold LE.getParsedEnvName
    rw [M.read_bind, hl]
    rfl
  rw [h1 _ rfl]
  rcases system_new T b f with ⟨r, l, e1, e2, e3⟩ | ⟨e, e1⟩ | e1
  · rw [M.bind_ok e1] at hk ⊢
    rw [h1 l (by rw [e2]; rfl), M.bind_def, hk, M.bind_def]
  · rw [M.bind_exc e1] at hk ⊢
    rw [M.bind_def, ← hk]
  · rw [M.bind_def, e1] at hk ⊢
    rw [M.bind_def, ← hk]

theorem onNames_bind {α β : Type} (m : M LE α) (k : α → M LE β) (a : App) :
    App.onNames (m >>= k) a = (App.onNames m >>= fun x => App.onNames (k x)) a := by
  unfold App.onNames
  rw [M.bind_def, M.bind_def]
  rcases m a.le with ⟨x | x | _, l⟩ <;> rfl

/-- What the object does before the last step of `main` is not done again. -/
theorem main_again (W : Site) (b : Str) (f : Bool) (environ : Environ) (files : Dict Str Str) (tmp : Str) (output location : Option Str) :
    (App.loadOnce W >>= fun _ => App.onNames (LE.getSystemName W.tool) >>= fun _ => App.main W false tmp output location) (App.new b f environ files) =
      App.main W false tmp output location (App.new b f environ files) := by
  generalize ha : App.new b f environ files = a
  have hle : a.le = LE.new b f := by rw [← ha]; rfl
  have hmain : ∀ a, App.main W false tmp output location a = (App.loadOnce W >>= fun _ => App.onNames (LE.getParsedEnvName W.tool) >>= fun q =>
      App.onSet W (SetEnv.apply W.sys W.env W.tool.fuel q) >>= fun r => (if r ≠ 0 then M.raise .runtimeError else pure () : M App Unit) >>= fun _ =>
      App.onNames (LE.getParsedEnvName W.tool) >>= fun _ => App.write W tmp output >>= fun _ => App.tellWhere tmp location) a := by
    intro a
    unfold App.main App.applyEnv
    rw [if_neg (by simp)]
    simp only [M.bind_assoc]
  rw [hmain a]
  generalize (fun q => App.onSet W (SetEnv.apply W.sys W.env W.tool.fuel q) >>= fun r => (if r ≠ 0 then M.raise .runtimeError else pure () : M App Unit) >>= fun _ =>
      App.onNames (LE.getParsedEnvName W.tool) >>= fun _ => App.write W tmp output >>= fun _ => App.tellWhere tmp location) = k at hmain ⊢
  obtain ⟨_, _, k3, k4⟩ := loadOnce_keeps (W := W) a
  rw [M.bind_def, M.bind_def]
  cases hx : App.loadOnce W a with
  | mk o a1 =>
  cases o with
  | exc e => rfl
  | diverge => rfl
  | ok u =>
  rw [hx] at k3 k4
  dsimp only at k3 k4 ⊢
  rw [hle] at k3
  have hp : (App.onNames (LE.getSystemName W.tool) >>= fun _ => App.onNames (LE.getParsedEnvName W.tool)) a1 = App.onNames (LE.getParsedEnvName W.tool) a1 := by
    rw [← onNames_bind]
    unfold App.onNames
    rw [k3, parsed_again]
  rw [M.bind_def, M.bind_def, ← hp, M.bind_def]
  rcases hs : App.onNames (LE.getSystemName W.tool) a1 with ⟨x | x | _, a2⟩
  · dsimp only
    have h2 : a2.setEnvironment.isSome = true := by
      have : (App.onNames (LE.getSystemName W.tool) a1).2.setEnvironment = a1.setEnvironment := rfl
      rw [hs] at this
      dsimp only at this
      rw [this]; exact k4
    rw [hmain a2, M.bind_ok (loadOnce_again h2), M.bind_def]
  · rfl
  · rfl

theorem list_again (W : Site) (b : Str) (f : Bool) (environ : Environ) (files : Dict Str Str) (tmp : Str) (output location : Option Str) :
    (App.onNames (LE.getSystemName W.tool) >>= fun _ => App.main W true tmp output location) (App.new b f environ files) =
      App.main W true tmp output location (App.new b f environ files) := by
  have hmain : ∀ a, App.main W true tmp output location a = (App.onNames (LE.envsText W.tool W.envsFile) >>= fun _ => M.raise .systemExit) a := by
    intro a
    unfold App.main
    rw [if_pos rfl]
    rfl
  have ht : (LE.getSystemName W.tool >>= fun _ => LE.envsText W.tool W.envsFile) (LE.new b f) = LE.envsText W.tool W.envsFile (LE.new b f) := by
    have hk := keyword_again W.tool b f
    unfold LE.envsText
    rcases system_new W.tool b f with ⟨r, l, e1, e2, e3⟩ | ⟨e, e1⟩ | e1
    · rw [M.bind_ok e1] at hk ⊢
      rw [M.bind_def, hk, M.bind_def]
    · rw [M.bind_exc e1] at hk ⊢
      rw [M.bind_def, ← hk]
    · rw [M.bind_def, e1] at hk ⊢
      rw [M.bind_def, ← hk]
  generalize ha : App.new b f environ files = a
  have hle : a.le = LE.new b f := by rw [← ha]; rfl
  have hp : (App.onNames (LE.getSystemName W.tool) >>= fun _ => App.onNames (LE.envsText W.tool W.envsFile)) a = App.onNames (LE.envsText W.tool W.envsFile) a := by
    rw [← onNames_bind]
    unfold App.onNames
    rw [hle, ht]
  rw [hmain a, M.bind_def, M.bind_def, ← hp, M.bind_def]
  rcases App.onNames (LE.getSystemName W.tool) a with ⟨x | x | _, a2⟩
  · dsimp only
    rw [hmain a2, M.bind_def]
  · rfl
  · rfl

section
variable {P : Place} {fs : FS} {argv : List Str} {is : List Item} {f1 f2 f3 : Str} {doc d1 d2 d3 : Doc} {environ : Environ} {files : Dict Str Str}

theorem readStep_ok {W : Type} {p : Str} {d : Doc} (h : HasDoc fs p d) (w : W) : readStep fs p w = (.ok (confOf d), w) := by
  unfold readStep
  rw [readIni_doc h]

/-- The work of load_env.py once its files can be read. -/
theorem leWork_main {a : LeArgs} (hl : a.listEnvs = false) (h1 : HasDoc fs f1 d1) (h2 : HasDoc fs f2 d2) (h3 : HasDoc fs f3 d3) :
    leWork P fs a f1 f2 f3 (App.new a.build a.force environ files) =
      App.main (siteOf P f2 d1 d2 d3) false P.tmp (a.output.map P.key) (a.location.map P.key) (App.new a.build a.force environ files) := by
  rw [← main_again]
  unfold leWork
  rw [if_neg (by rw [hl]; decide), M.bind_ok (readStep_ok h3 _)]
  rw [M.bind_def, M.bind_def]
  rw [show App.loadOnce (P.site f2 emptyCfg emptyCfg (confOf d3)) = App.loadOnce (siteOf P f2 d1 d2 d3) from rfl]
  rcases App.loadOnce (siteOf P f2 d1 d2 d3) (App.new a.build a.force environ files) with ⟨x | x | _, a1⟩
  · dsimp only
    rw [M.bind_ok (readStep_ok h1 _), M.bind_def, M.bind_def]
    rw [show LE.getSystemName (P.site f2 (confOf d1) emptyCfg (confOf d3)).tool = LE.getSystemName (siteOf P f2 d1 d2 d3).tool from rfl]
    rcases App.onNames (LE.getSystemName (siteOf P f2 d1 d2 d3).tool) a1 with ⟨x | x | _, a2⟩
    · dsimp only
      rw [M.bind_ok (readStep_ok h2 _)]
      rfl
    · rfl
    · rfl
  · rfl
  · rfl

theorem leWork_list {a : LeArgs} (hl : a.listEnvs = true) (h1 : HasDoc fs f1 d1) (h2 : HasDoc fs f2 d2) :
    leWork P fs a f1 f2 f3 (App.new a.build a.force environ files) =
      App.main (siteOf P f2 d1 d2 []) true P.tmp (a.output.map P.key) (a.location.map P.key) (App.new a.build a.force environ files) := by
  rw [← list_again]
  unfold leWork
  rw [if_pos hl, M.bind_ok (readStep_ok h1 _), M.bind_def, M.bind_def]
  rw [show LE.getSystemName (P.site f2 (confOf d1) emptyCfg emptyCfg).tool = LE.getSystemName (siteOf P f2 d1 d2 []).tool from rfl]
  rcases App.onNames (LE.getSystemName (siteOf P f2 d1 d2 []).tool) (App.new a.build a.force environ files) with ⟨x | x | _, a2⟩
  · dsimp only
    rw [M.bind_ok (readStep_ok h2 _)]
    rfl
  · rfl
  · rfl

theorem leProgram_ok (hr : Reading P.neg leUsage argv is) (hu : Usable is) (hf : LeFiles P (P.disk files) is f1 f2 f3 doc) :
    let r := leWork P (P.disk files) (leMeaning P.resolve is) f1 f2 f3
      (App.new (leMeaning P.resolve is).build (leMeaning P.resolve is).force environ files)
    leProgram P argv environ files = { outcome := r.1, environ := r.2.environ, files := r.2.files } := by
  intro r
  unfold leProgram
  rw [leArgs_ok hr hu hf]
  rfl

/-- What a program leaves, from how a run of the object ends. -/
def leftBy (r : Out Unit × App) : Left := { outcome := r.1, environ := r.2.environ, files := r.2.files }

theorem target_map (d : Str) : ((lastValue d is).map P.resolve).map P.key = target P d is := by
  unfold target
  cases lastValue d is <;> rfl

theorem leProgram_main (hr : Reading P.neg leUsage argv is) (hu : Usable is) (hl : switched py!"list_envs" is = false)
    (hf : LeFiles P (P.disk files) is f1 f2 f3 doc) (h1 : HasDoc (P.disk files) f1 d1) (h2 : HasDoc (P.disk files) f2 d2)
    (h3 : HasDoc (P.disk files) f3 d3) :
    leProgram P argv environ files = leftBy (App.main (siteOf P f2 d1 d2 d3) false P.tmp (target P py!"output" is)
      (target P py!"load_matching_env_location" is) (App.new ((wordsOf is).headD []) (switched py!"force" is) environ files)) := by
  rw [leProgram_ok (environ := environ) hr hu hf, leWork_main (a := leMeaning P.resolve is) hl h1 h2 h3, ← target_map, ← target_map]
  rfl

theorem leProgram_list (hr : Reading P.neg leUsage argv is) (hu : Usable is) (hl : switched py!"list_envs" is = true)
    (hf : LeFiles P (P.disk files) is f1 f2 f3 doc) (h1 : HasDoc (P.disk files) f1 d1) (h2 : HasDoc (P.disk files) f2 d2) :
    leProgram P argv environ files = leftBy (App.main (siteOf P f2 d1 d2 []) true P.tmp (target P py!"output" is)
      (target P py!"load_matching_env_location" is) (App.new ((wordsOf is).headD []) (switched py!"force" is) environ files)) := by
  rw [leProgram_ok (environ := environ) hr hu hf, leWork_list (a := leMeaning P.resolve is) hl h1 h2, ← target_map, ← target_map]
  rfl

theorem readIni_absent {p : Str} (h : (fs p).isFile = false) : readIni fs p = .exc .ioError := by
  have : loadFiles fs (topNew p).files (topNew p).delimiters = (.error .ioError, some emptyCfg) := by
    show (if [p].all (fun p => (fs p).isFile) = false then _ else _) = _
    rw [if_pos (by simp [h])]
  show (match (loadFiles fs (topNew p).files (topNew p).delimiters).1 with | .ok c => Out.ok c | .error e => .exc e) = _
  rw [this]

theorem readIni_unreadable {p : Str} (h : fs p = .unreadable) :
    readIni fs p = .ok (({} : Reader).cfg commonSectionName) := by
  have : loadFiles fs (topNew p).files (topNew p).delimiters =
      (.ok (({} : Reader).cfg commonSectionName), some (({} : Reader).cfg commonSectionName)) := by
    have hr : readFiles fs (topNew p).delimiters [p] {} = (none, {}) := by simp [readFiles, h]
    show (if [p].all (fun p => (fs p).isFile) = false then (Except.error PyExc.ioError, some emptyCfg)
      else match readFiles fs (topNew p).delimiters [p] {} with
        | (none, r) => (.ok (r.cfg commonSectionName), some (r.cfg commonSectionName))
        | (some e, r) => if e = .duplicateOption then (.error e, none) else (.error e, some (r.cfg commonSectionName))) = _
    rw [if_neg (by simp [h, FNode.isFile]), hr]
  show (match (loadFiles fs (topNew p).files (topNew p).delimiters).1 with | .ok c => Out.ok c | .error e => .exc e) = _
  rw [this]

/-- Nothing has been done that lasts. -/
def Still {α : Type} (environ : Environ) (files : Dict Str Str) (r : Out α × App) : Prop :=
  r.2.environ = environ ∧ r.2.files = files

theorem still_bind {α β : Type} {m : M App α} {k : α → M App β} {a : App} (hm : Still a.environ a.files (m a))
    (hk : ∀ x a', m a = (.ok x, a') → Still a'.environ a'.files (k x a')) : Still a.environ a.files ((m >>= k) a) := by
  rw [M.bind_def]
  rcases hx : m a with ⟨x | x | _, a'⟩
  · rw [hx] at hm
    obtain ⟨g1, g2⟩ := hk x a' hx
    exact ⟨g1.trans hm.1, g2.trans hm.2⟩
  · rw [hx] at hm; exact hm
  · rw [hx] at hm; exact hm

/-- A file that is not there ends the work of load_env.py before anything has been done that lasts. -/
theorem leWork_absent {a : LeArgs} {x : App} (hl : a.listEnvs = false) (h : ∃ p ∈ [f1, f2, f3], (fs p).isFile = false) :
    (leWork P fs a f1 f2 f3 x).1 ≠ .ok () ∧ Still x.environ x.files (leWork P fs a f1 f2 f3 x) := by
  unfold leWork
  rw [if_neg (by rw [hl]; decide)]
  rw [M.bind_def]
  unfold readStep
  rcases e3 : readIni fs f3 with c3 | e | _
  rotate_left
  · exact ⟨by simp, rfl, rfl⟩
  · exact ⟨by simp, rfl, rfl⟩
  have hn3 : (fs f3).isFile ≠ false := fun hh => by rw [readIni_absent hh] at e3; cases e3
  dsimp only
  rw [M.bind_def]
  obtain ⟨k1, k2, _⟩ := loadOnce_keeps (W := P.site f2 emptyCfg emptyCfg c3) x
  rcases e0 : App.loadOnce (P.site f2 emptyCfg emptyCfg c3) x with ⟨u | e | _, x1⟩
  rotate_left
  · rw [e0] at k1 k2; exact ⟨by simp, k1, k2⟩
  · rw [e0] at k1 k2; exact ⟨by simp, k1, k2⟩
  rw [e0] at k1 k2
  dsimp only at k1 k2 ⊢
  rw [M.bind_def]
  rcases e1 : readIni fs f1 with c1 | e | _
  rotate_left
  · exact ⟨by simp, k1, k2⟩
  · exact ⟨by simp, k1, k2⟩
  have hn1 : (fs f1).isFile ≠ false := fun hh => by rw [readIni_absent hh] at e1; cases e1
  dsimp only
  rw [M.bind_def]
  have k3 : (App.onNames (LE.getSystemName (P.site f2 c1 emptyCfg c3).tool) x1).2.environ = x1.environ ∧
    (App.onNames (LE.getSystemName (P.site f2 c1 emptyCfg c3).tool) x1).2.files = x1.files := ⟨rfl, rfl⟩
  rcases e2 : App.onNames (LE.getSystemName (P.site f2 c1 emptyCfg c3).tool) x1 with ⟨u | e | _, x2⟩ <;> rw [e2] at k3
  rotate_left
  · exact ⟨by simp, k3.1.trans k1, k3.2.trans k2⟩
  · exact ⟨by simp, k3.1.trans k1, k3.2.trans k2⟩
  have hn2 : (fs f2).isFile = false := by
    obtain ⟨p, hp, hh⟩ := h
    simp only [List.mem_cons, List.not_mem_nil, or_false] at hp
    rcases hp with rfl | rfl | rfl
    · exact absurd hh hn1
    · exact hh
    · exact absurd hh hn3
  dsimp only
  rw [M.bind_def, readIni_absent hn2]
  exact ⟨by simp, k3.1.trans k1, k3.2.trans k2⟩

/-- The constructor checks load-env.ini before the command line is read. -/
theorem leArgs_refused (hd : TopDoc P.fuel fs P.leIni false loadEnvSections loadEnvFiles doc)
    (h : leParse P.resolve P.neg argv = .exc .systemExit) : leArgs P.fuel fs P.leIni P.resolve P.neg argv = .exc .systemExit := by
  obtain ⟨f, e1, _⟩ := (access_once (n := P.fuel) (t := loadEnvTop) loadEnvTop_proper
    ((readIni_newOn fs P.leIni).trans (readIni_doc hd.hasDoc)) hd.fuel hd.apart hd.sections).1 hd.names
  unfold leArgs
  rw [e1, h]

end

/-! ### gen_config.py -/

section
variable {P : Place} {fs : FS} {argv : List Str} {is : List Item} {g1 g2 f1 f2 f3 : Str} {doc le dg dc d1 d2 : Doc} {files : Dict Str Str}
  {input : List Str} {A : GenArgs} {j : Job}

theorem genArgs_ok (hr : Reading P.neg gcUsage argv is) (hu : Usable is) (hf : GcFiles P fs is g1 g2 f1 f2 f3 doc) :
    ∃ A, (genArgs P.fuel fs P.gcIni P.resolve P.neg argv GCTop.new).1 = .ok A ∧ P.known A = asked P is g1 g2 f1 f2 f3 := by
  obtain ⟨A, e, h1, h2, h3, h4, h5, h6, h7, h8, c1, c2, c3, c4, c5⟩ := (C72_genconfig_files (n := P.fuel) (fs := fs) (resolve := P.resolve) hf.anchored []
    (fun fs0 h => by cases h; exact (readIni_newOn fs P.gcIni).trans (readIni_doc hf.hasDoc)) hf.fuel hf.apart hf.sections hr hu).1 hf.names
  refine ⟨A, e, ?_⟩
  have c1 := chosen_unique c1 hf.flags
  have c2 := chosen_unique c2 hf.configs
  have c3 := chosen_unique c3 hf.systems
  have c4 := chosen_unique c4 hf.envs
  have c5 := chosen_unique c5 hf.specs
  unfold Place.known asked
  rw [h1, h2, h3, h4, h5, h6, h7, h8, c1, c2, c3, c4, c5, target_map, target_map]

theorem gcProgram_ok (hr : Reading P.neg gcUsage argv is) (hu : Usable is) (hf : GcFiles P (P.disk files) is g1 g2 f1 f2 f3 doc) :
    gcProgram P argv files input = ((genWork P (P.disk files) (asked P is g1 g2 f1 f2 f3) (Job.new (asked P is g1 g2 f1 f2 f3) files input)).1,
      (genWork P (P.disk files) (asked P is g1 g2 f1 f2 f3) (Job.new (asked P is g1 g2 f1 f2 f3) files input)).2.files) := by
  obtain ⟨A, e, h⟩ := genArgs_ok hr hu hf
  unfold gcProgram
  rw [e]
  dsimp only
  rw [h]

theorem loadEnvFor_ok (h : Hands P fs A.build A.systemsFile A.envsFile A.specsFile le) :
    loadEnvFor P fs A j = (.ok (A.systemsFile, A.envsFile), j) := by
  have hl := (C72_handover (resolve := P.resolve) (neg := P.neg) A (h.files _ (by simp)).1 (h.files _ (by simp)).1 (h.files _ (by simp)).1).2 h.build
  obtain ⟨js, r, u, m⟩ := (C72_loadenv _).1 hl
  obtain ⟨a1, a2, a3, e, c1, c2, c3⟩ := C72_loadenv_files (n := P.fuel) (fs := fs) (resolve := P.resolve)
    ((readIni_newOn fs P.leIni).trans (readIni_doc h.top.hasDoc)) h.top.fuel h.top.apart h.top.sections r u h.top.names
  have k1 : fileOption P.resolve js (py!"load-env", py!"supported-systems") = some (P.resolve A.systemsFile) := (congrArg LeArgs.systems m).symm
  have k2 : fileOption P.resolve js (py!"load-env", py!"supported-envs") = some (P.resolve A.envsFile) := (congrArg LeArgs.envs m).symm
  have e1 : a1 = A.systemsFile := by
    rcases c1 with ⟨p, q, rfl⟩ | ⟨q, _⟩
    · rw [k1] at q; cases q; exact (h.files _ (by simp)).2
    · rw [k1] at q; cases q
  have e2 : a2 = A.envsFile := by
    rcases c2 with ⟨p, q, rfl⟩ | ⟨q, _⟩
    · rw [k2] at q; cases q; exact (h.files _ (by simp)).2
    · rw [k2] at q; cases q
  unfold loadEnvFor
  rw [e, ← m]
  dsimp only
  rw [if_pos ⟨rfl, rfl⟩, e1, e2]
  rfl

theorem genSiteFor_ok (h : Hands P fs A.build A.systemsFile A.envsFile A.specsFile le) (h1 : HasDoc fs A.flagsFile dg) (h2 : HasDoc fs A.configsFile dc)
    (h3 : HasDoc fs A.systemsFile d1) (h4 : HasDoc fs A.envsFile d2) : genSiteFor P fs A j = (.ok (genSiteOf P A dg dc d1 d2), j) := by
  unfold genSiteFor
  rw [M.bind_ok (readStep_ok h1 _), M.bind_ok (loadEnvFor_ok h), M.bind_ok (readStep_ok h2 _), M.bind_ok (readStep_ok h3 _), M.bind_ok (readStep_ok h4 _)]
  rfl

theorem genWork_fragment {file : Str} (l1 : A.listFlags = false) (l2 : A.listConfigs = false) (l3 : A.saveArgs = none) (l4 : A.fragment = some file)
    (h : Hands P fs A.build A.systemsFile A.envsFile A.specsFile le) (h1 : HasDoc fs A.flagsFile dg) (h2 : HasDoc fs A.configsFile dc)
    (h3 : HasDoc fs A.systemsFile d1) (h4 : HasDoc fs A.envsFile d2) : genWork P fs A j = Job.main (genSiteOf P A dg dc d1 d2) P.out P.loc j := by
  unfold genWork
  rw [l1, l2, if_neg (by decide), if_neg (by decide), l3, l4]
  dsimp only
  rw [M.bind_ok (genSiteFor_ok h h1 h2 h3 h4)]

theorem genWork_save {file : Str} (l1 : A.listFlags = false) (l2 : A.listConfigs = false) (l3 : A.saveArgs = some file) (dg dc d1 d2 : Doc) :
    genWork P fs A j = Job.main (genSiteOf P A dg dc d1 d2) P.out P.loc j := by
  unfold genWork
  rw [l1, l2, if_neg (by decide), if_neg (by decide), l3]
  unfold Job.main
  have e1 : (genSiteOf P A dg dc d1 d2).args = A := rfl
  have e2 : (P.genSite A emptyCfg emptyCfg emptyCfg emptyCfg).args = A := rfl
  rw [e1, e2, l1, l2, if_neg (by decide), if_neg (by decide), if_neg (by decide), if_neg (by decide), l3]

theorem genWork_flags (l1 : A.listFlags = false) (l2 : A.listConfigs = false) (l3 : A.saveArgs = none) (l4 : A.fragment = none)
    (h : Hands P fs A.build A.systemsFile A.envsFile A.specsFile le) (h1 : HasDoc fs A.flagsFile dg) (h2 : HasDoc fs A.configsFile dc)
    (h3 : HasDoc fs A.systemsFile d1) (h4 : HasDoc fs A.envsFile d2) : genWork P fs A j = Job.main (genSiteOf P A dg dc d1 d2) P.out P.loc j := by
  unfold genWork
  rw [l1, l2, if_neg (by decide), if_neg (by decide), l3, l4]
  have hp : ∀ j, Job.put P.out [] j = (.ok (), { j with files := Dict.set j.files P.out [] }) := fun _ => rfl
  have hm : ∀ j, Job.main (genSiteOf P A dg dc d1 d2) P.out P.loc j = Job.writeFlags (genSiteOf P A dg dc d1 d2) P.out P.loc j := by
    intro j
    unfold Job.main
    have e1 : (genSiteOf P A dg dc d1 d2).args = A := rfl
    rw [e1, l1, l2, if_neg (by decide), if_neg (by decide), l3, l4]
  dsimp only
  rw [M.bind_ok (hp j), M.bind_ok (genSiteFor_ok h h1 h2 h3 h4), hm, hm]
  unfold Job.writeFlags
  rw [M.bind_ok (hp j), M.bind_ok (hp _)]
  dsimp only
  rw [Dict.set_set]

theorem genWork_listFlags (l1 : A.listFlags = true) (h1 : HasDoc fs A.flagsFile dg) (dc d1 d2 : Doc) :
    genWork P fs A j = Job.main (genSiteOf P A dg dc d1 d2) P.out P.loc j := by
  unfold genWork
  rw [if_pos l1, M.bind_ok (readStep_ok h1 _)]
  unfold Job.main
  have e1 : (genSiteOf P A dg dc d1 d2).args = A := rfl
  have e2 : (P.genSite A (confOf dg) emptyCfg emptyCfg emptyCfg).args = A := rfl
  rw [e1, e2, if_pos l1, if_pos l1]
  rfl

theorem onGc_bind {α β : Type} (m : M GC α) (k : α → M GC β) (j : Job) :
    Job.onGc (m >>= k) j = (Job.onGc m >>= fun x => Job.onGc (k x)) j := by
  unfold Job.onGc
  rw [M.bind_def, M.bind_def]
  rcases m j.gc with ⟨x | x | _, l⟩ <;> rfl

/-- The list of the configurations begins with the name of the system. -/
theorem listConfigs_again (T : Tool) (b : Str) (f : Bool) :
    (GC.loadLE >>= fun _ => GC.onLE (LE.getSystemName T) >>= fun _ => GC.listConfigs T) (GC.new b f) = GC.listConfigs T (GC.new b f) := by
  have hl : GC.loadLE (GC.new b f) = (.ok (), { GC.new b f with le := some (LE.new b f) }) := rfl
  have hl2 : ∀ g : GC, g.le.isSome = true → GC.loadLE g = (.ok (), g) := by
    intro g hg
    unfold GC.loadLE M.modify
    cases hx : g.le with
    | none => rw [hx] at hg; cases hg
    | some _ => dsimp only; rw [hx]
  have ho : GC.onLE (LE.getSystemName T) { GC.new b f with le := some (LE.new b f) } =
    ((LE.getSystemName T (LE.new b f)).1, { GC.new b f with le := some (LE.getSystemName T (LE.new b f)).2 }) := rfl
  rw [M.bind_ok hl]
  unfold GC.listConfigs
  rw [M.bind_ok hl]
  rcases system_new T b f with ⟨r, l, e1, e2, e3⟩ | ⟨e, e1⟩ | e1 <;> rw [e1] at ho
  · rw [M.bind_ok ho, M.bind_ok ho, M.bind_ok (hl2 _ rfl)]
    have ho2 : GC.onLE (LE.getSystemName T) { GC.new b f with le := some l } =
      ((LE.getSystemName T l).1, { GC.new b f with le := some (LE.getSystemName T l).2 }) := rfl
    rw [e3] at ho2
    rw [M.bind_ok ho2]
  · rw [M.bind_exc ho, M.bind_exc ho]
  · rw [M.bind_def, M.bind_def, ho]

theorem genWork_listConfigs (l1 : A.listFlags = false) (l2 : A.listConfigs = true) (h : Hands P fs A.build A.systemsFile A.envsFile A.specsFile le)
    (h2 : HasDoc fs A.configsFile dc) (h3 : HasDoc fs A.systemsFile d1) (dg d2 : Doc) :
    genWork P fs A (Job.new A files input) = Job.main (genSiteOf P A dg dc d1 d2) P.out P.loc (Job.new A files input) := by
  have hm : ∀ W : GenSite, W.args = A → ∀ j, Job.main W P.out P.loc j = (Job.onGc (GC.listConfigs W.tool) >>= fun l =>
      (do
        let _ ← (pure (msgForList (py!"Please select one of the following complete configurations from\n" ++ A.configsFile ++ py!"\n\n") l py!"INFO" py!"\n") : M Job Str)
        M.raise .systemExit : M Job Unit)) j := by
    intro W hW j
    unfold Job.main
    rw [hW, l1, if_neg (by decide), if_pos l2]
    unfold Job.listConfigs Job.configsText
    rw [hW, M.bind_assoc]
  rw [hm _ rfl]
  unfold genWork
  rw [l1, if_neg (by decide), if_pos l2, M.bind_ok (loadEnvFor_ok h)]
  dsimp only
  rw [M.bind_ok (readStep_ok h3 _)]
  have ht : GC.listConfigs (genSiteOf P A dg dc d1 d2).tool = GC.listConfigs (P.genSite A emptyCfg (confOf dc) (confOf d1) emptyCfg).tool := rfl
  have hs : LE.getSystemName (P.genSite A emptyCfg emptyCfg (confOf d1) emptyCfg).tool = LE.getSystemName (P.genSite A emptyCfg (confOf dc) (confOf d1) emptyCfg).tool := rfl
  rw [ht, hs]
  have hg : Job.onGc (GC.listConfigs (P.genSite A emptyCfg (confOf dc) (confOf d1) emptyCfg).tool) (Job.new A files input) =
      (Job.onGc GC.loadLE >>= fun _ => Job.onGc (GC.onLE (LE.getSystemName (P.genSite A emptyCfg (confOf dc) (confOf d1) emptyCfg).tool)) >>= fun _ =>
        Job.onGc (GC.listConfigs (P.genSite A emptyCfg (confOf dc) (confOf d1) emptyCfg).tool)) (Job.new A files input) := by
    have e1 := onGc_bind GC.loadLE (fun _ => GC.onLE (LE.getSystemName (P.genSite A emptyCfg (confOf dc) (confOf d1) emptyCfg).tool) >>= fun _ =>
      GC.listConfigs (P.genSite A emptyCfg (confOf dc) (confOf d1) emptyCfg).tool) (Job.new A files input)
    have e2 := fun j => onGc_bind (GC.onLE (LE.getSystemName (P.genSite A emptyCfg (confOf dc) (confOf d1) emptyCfg).tool))
      (fun _ => GC.listConfigs (P.genSite A emptyCfg (confOf dc) (confOf d1) emptyCfg).tool) j
    rw [show (fun _ : Unit => Job.onGc (GC.onLE (LE.getSystemName (P.genSite A emptyCfg (confOf dc) (confOf d1) emptyCfg).tool) >>= fun _ =>
      GC.listConfigs (P.genSite A emptyCfg (confOf dc) (confOf d1) emptyCfg).tool)) = fun _ => Job.onGc (GC.onLE (LE.getSystemName (P.genSite A emptyCfg (confOf dc) (confOf d1) emptyCfg).tool)) >>= fun _ =>
        Job.onGc (GC.listConfigs (P.genSite A emptyCfg (confOf dc) (confOf d1) emptyCfg).tool) from funext fun _ => funext fun j => e2 j] at e1
    rw [← e1]
    unfold Job.onGc
    rw [show (Job.new A files input).gc = GC.new A.build A.force from rfl, listConfigs_again]
  rw [M.bind_def (Job.onGc (GC.listConfigs _)), hg]
  simp only [M.bind_def]
  rcases Job.onGc GC.loadLE (Job.new A files input) with ⟨x | x | _, j1⟩ <;> try rfl
  dsimp only
  rcases Job.onGc (GC.onLE (LE.getSystemName (P.genSite A emptyCfg (confOf dc) (confOf d1) emptyCfg).tool)) j1 with ⟨x | x | _, j2⟩ <;> try rfl
  dsimp only
  rw [readStep_ok h2]
  dsimp only
  rw [hm _ rfl, M.bind_def]
  rfl

theorem readStep_still {W : Type} (p : Str) (w : W) : (readStep fs p w).2 = w := rfl

theorem loadEnvFor_still (P : Place) (fs : FS) (A : GenArgs) (j : Job) : (loadEnvFor P fs A j).2 = j := by
  unfold loadEnvFor
  rcases leArgs P.fuel fs P.leIni P.resolve P.neg (loadEnvArgs A) with ⟨a, l⟩ | e | _
  · dsimp only; split <;> rfl
  · rfl
  · rfl

/-- The reading of the files changes nothing. -/
theorem genSiteFor_still (P : Place) (fs : FS) (A : GenArgs) (j : Job) : (genSiteFor P fs A j).2 = j := by
  have hb : ∀ {α β : Type} (m : M Job α) (k : α → M Job β), (∀ j, (m j).2 = j) → (∀ x j, (k x j).2 = j) → ∀ j, ((m >>= k) j).2 = j := by
    intro α β m k h1 h2 j
    have := h1 j
    rw [M.bind_def]
    rcases hm : m j with ⟨x | x | _, j'⟩ <;> rw [hm] at this
    · dsimp only at this ⊢; rw [h2, this]
    · exact this
    · exact this
  unfold genSiteFor
  refine hb _ _ (readStep_still _) (fun _ => hb _ _ (loadEnvFor_still P fs A) fun _ => hb _ _ (readStep_still _) fun _ => hb _ _ (readStep_still _) fun _ =>
    hb _ _ (readStep_still _) fun _ _ => rfl) j

theorem genSiteFor_absent (h : Hands P fs A.build A.systemsFile A.envsFile A.specsFile le)
    (ha : ∃ p ∈ [A.flagsFile, A.configsFile, A.systemsFile, A.envsFile], (fs p).isFile = false) : ∀ W, (genSiteFor P fs A j).1 ≠ .ok W := by
  intro W hW
  have hr : ∀ p, (∃ c, readIni fs p = .ok c) → (fs p).isFile ≠ false := fun p ⟨c, hc⟩ hh => by rw [readIni_absent hh] at hc; cases hc
  unfold genSiteFor at hW
  rw [M.bind_def] at hW
  rcases e1 : readStep fs A.flagsFile j with ⟨x1 | x | _, j1⟩ <;> rw [e1] at hW
  rotate_left
  · cases hW
  · cases hW
  dsimp only at hW
  rw [M.bind_ok (loadEnvFor_ok h), M.bind_def] at hW
  rcases e2 : readStep fs A.configsFile j1 with ⟨x2 | x | _, j2⟩ <;> rw [e2] at hW
  rotate_left
  · cases hW
  · cases hW
  dsimp only at hW
  rw [M.bind_def] at hW
  rcases e3 : readStep fs A.systemsFile j2 with ⟨x3 | x | _, j3⟩ <;> rw [e3] at hW
  rotate_left
  · cases hW
  · cases hW
  dsimp only at hW
  rw [M.bind_def] at hW
  rcases e4 : readStep fs A.envsFile j3 with ⟨x4 | x | _, j4⟩ <;> rw [e4] at hW
  rotate_left
  · cases hW
  · cases hW
  obtain ⟨p, hp, hh⟩ := ha
  simp only [List.mem_cons, List.not_mem_nil, or_false] at hp
  rcases hp with rfl | rfl | rfl | rfl
  · exact hr _ ⟨_, congrArg Prod.fst e1⟩ hh
  · exact hr _ ⟨_, congrArg Prod.fst e2⟩ hh
  · exact hr _ ⟨_, congrArg Prod.fst e3⟩ hh
  · exact hr _ ⟨_, congrArg Prod.fst e4⟩ hh

/-- A file that is not there ends the work; the file for the flags has been made. -/
theorem genWork_absent (l1 : A.listFlags = false) (l2 : A.listConfigs = false) (l3 : A.saveArgs = none)
    (h : Hands P fs A.build A.systemsFile A.envsFile A.specsFile le)
    (ha : ∃ p ∈ [A.flagsFile, A.configsFile, A.systemsFile, A.envsFile], (fs p).isFile = false) :
    (genWork P fs A j).1 ≠ .ok () ∧
      (genWork P fs A j).2.files = (match A.fragment with | some _ => j.files | none => Dict.set j.files P.out []) := by
  have hb : ∀ j, (∀ W, (genSiteFor P fs A j).1 ≠ .ok W) → (genSiteFor P fs A j).2 = j →
      ((genSiteFor P fs A >>= fun W => Job.main W P.out P.loc) j).1 ≠ .ok () ∧ ((genSiteFor P fs A >>= fun W => Job.main W P.out P.loc) j).2 = j := by
    intro j h1 h2
    rw [M.bind_def]
    rcases hx : genSiteFor P fs A j with ⟨x | x | _, j'⟩ <;> rw [hx] at h1 h2
    · exact absurd rfl (h1 x)
    · exact ⟨by simp, h2⟩
    · exact ⟨by simp, h2⟩
  unfold genWork
  rw [l1, l2, if_neg (by decide), if_neg (by decide), l3]
  cases hf : A.fragment with
  | some file =>
    obtain ⟨k1, k2⟩ := hb j (genSiteFor_absent h ha) (genSiteFor_still P fs A j)
    exact ⟨k1, congrArg Job.files k2⟩
  | none =>
    obtain ⟨k1, k2⟩ := hb { j with files := Dict.set j.files P.out [] } (genSiteFor_absent h ha) (genSiteFor_still P fs A _)
    exact ⟨k1, congrArg Job.files k2⟩

end

/-! ### The programs one after the other -/

section
variable {P : Place} {files F : Dict Str Str} {K : List Str}

theorem disk_keep (h : ∀ k, k ∉ K → Dict.get? F k = Dict.get? files k) {p : Str} (hp : P.key p ∉ K) : P.disk F p = P.disk files p := by
  unfold Place.disk
  rw [h _ hp]

theorem hasDoc_keep (h : ∀ k, k ∉ K → Dict.get? F k = Dict.get? files k) {p : Str} (hp : P.key p ∉ K) {d : Doc} (hd : HasDoc (P.disk files) p d) :
    HasDoc (P.disk F) p d := by
  obtain ⟨t, h1, h2⟩ := hd
  exact ⟨t, (disk_keep h hp).trans h1, h2⟩

theorem there_keep (h : ∀ k, k ∉ K → Dict.get? F k = Dict.get? files k) (hk : ∀ k ∈ K, ∃ t, Dict.get? F k = some t) {q : Str}
    (hq : There (P.disk files) q) : There (P.disk F) q := by
  obtain ⟨u, hn, hq⟩ := hq
  refine ⟨u, hn, ?_⟩
  by_cases hp : P.key u ∈ K
  · obtain ⟨t, ht⟩ := hk _ hp
    unfold Place.disk
    rw [ht]
    exact fun h => by cases h
  · rw [disk_keep h hp]
    exact hq

theorem topDoc_keep (h : ∀ k, k ∉ K → Dict.get? F k = Dict.get? files k) (hk : ∀ k ∈ K, ∃ t, Dict.get? F k = some t) {n : Nat} {ini : Str}
    {must : Bool} {ss : List Str} {wanted : List (Str × Str)} {d : Doc} (hi : P.key ini ∉ K) (ht : TopDoc n (P.disk files) ini must ss wanted d) :
    TopDoc n (P.disk F) ini must ss wanted d :=
  ⟨hasDoc_keep h hi ht.hasDoc, ht.fuel, ht.apart, ht.sections, fun s k hm =>
    let ⟨d, r, v, q, e1, e2, e3, e4⟩ := ht.names s k hm
    ⟨d, r, v, q, e1, e2, e3, fun hh => there_keep h hk (e4 hh)⟩⟩

end

end CPE.Cli
