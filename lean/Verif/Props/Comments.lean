import Verif.Spec.Comments
import Verif.Proofs.BlankLines
import Verif.Props.IniText
import Verif.Model.SetEnvLife
import Verif.Model.Programs
/-
C90: comments on lines of their own say nothing, wherever they stand; nor do blank lines where no value goes on, and
blanks at the ends of lines.
-/
namespace CPE.Props
open CPE CPE.Spec

section
variable {δ ω : Type}

theorem file_commented (cn : Str) (D : List Str) {t t' : Str} (h : SameButComments t t') (r : Reader) :
    Reader.file cn D t' r = Reader.file cn D t r := by
  obtain ⟨ls, ls', h1, h2, h3, h4, h5⟩ := h
  unfold Reader.file
  rw [linesOf_text h3 h1, linesOf_text h4 h2]
  obtain ⟨e1, e2⟩ := (Reader.lines_blanked (cn := cn) D h5).1 _ { sections := r.sections, common := r.common } rfl fun _ _ _ => rfl
  have e3 := congrArg Reader.sections e2
  have e4 := congrArg Reader.common e2
  have e5 := congrArg Reader.bad e2
  dsimp only [Reader.settled] at e3 e4 e5
  dsimp only
  rw [e1, e3, e4, e5]

theorem readFiles_alike {fs fs' : FS} (h : DiskAlike fs fs') (D : List Str) (ps : List Str) :
    ∀ r, readFiles fs' D ps r = readFiles fs D ps r := by
  induction ps with
  | nil => exact fun _ => rfl
  | cons p ps ih =>
    intro r
    unfold readFiles
    rcases h p with e | ⟨t, t', e, e', hs⟩
    · rw [e]
      split
      · split
        · exact ih _
        · rfl
      · exact ih _
    · rw [e, e']
      dsimp only
      rw [file_commented _ D hs]
      split
      · exact ih _
      · rfl

theorem loadFiles_alike {fs fs' : FS} (h : DiskAlike fs fs') : loadFiles fs' = loadFiles fs := by
  funext files D
  have hf : (fun p => (fs' p).isFile) = fun p => (fs p).isFile := by
    funext p
    rcases h p with e | ⟨t, t', e, e', _⟩
    · rw [e]
    · rw [e, e']; rfl
  unfold loadFiles
  rw [hf]
  simp only [readFiles_alike h]

theorem configdata_alike {fs fs' : FS} (h : DiskAlike fs fs') :
    (Full.configdata fs' : Full δ ω → _) = Full.configdata fs := by
  funext f
  unfold Full.configdata
  rw [loadFiles_alike h]

theorem runOp_alike {fs fs' : FS} (h : DiskAlike fs fs') (K : Env δ ω) (n : Nat) : Full.runOp K n fs' = Full.runOp K n fs := by
  funext op f
  unfold Full.runOp
  rw [configdata_alike h]

theorem unroll_alike {fs fs' : FS} (h : DiskAlike fs fs') (K : Env δ ω) (n : Nat) : Full.unroll K n fs' = Full.unroll K n fs := by
  funext sec sp b f
  unfold Full.unroll Full.unrollSelf
  simp only [configdata_alike h]

/-- C90: every operation of every class, on an object in any state, does the same whether or not there are comments,
blank lines that end values, and blanks at the ends of lines. -/
theorem C90_operation {fs fs' : FS} (h : DiskAlike fs fs') (K : Env δ ω) (n : Nat) (op : FOp) (f : Full δ ω) :
    op.exec K n fs' f = op.exec K n fs f := by
  cases op <;> simp only [FOp.exec, configdata_alike h, runOp_alike h, unroll_alike h]

/-- C90: and so does every history, comments and such blanks being put into the files or taken out of them at any time. -/
theorem C90_history (K : Env δ ω) (n : Nat) {H H' : List (FS × FOp)} (h : HistoryAlike H H') (f : Full δ ω) :
    FOp.run K n H' f = FOp.run K n H f := by
  induction h generalizing f with
  | nil => rfl
  | cons hd _ ih =>
    unfold FOp.run
    rw [C90_operation hd]
    dsimp only
    rw [ih]

end

/-- C90: the same for SetEnvironment: what its operations give, do to the environment and print. -/
theorem C90_setenvironment {fs fs' : FS} (h : DiskAlike fs fs') (sys : SetEnv.Sys) (repr : SetEnv.Action → Str) (st : SetEnv.Settings) (n : Nat)
    (op : SetEnv.LOp) : op.exec sys repr st n fs' = op.exec sys repr st n fs := by
  have hr := runOp_alike h (SetEnv.cls st) n
  have hl : ∀ s, SetEnv.lookForApply st n fs' s = SetEnv.lookForApply st n fs s := by
    intro s; unfold SetEnv.lookForApply; rw [hr]
  have hb : ∀ op, FOp.exec (SetEnv.cls st) n fs' op = FOp.exec (SetEnv.cls st) n fs op := fun op => funext fun f => C90_operation h _ n op f
  have he : ∀ s, SetEnv.Life.ensureList st n fs' s = SetEnv.Life.ensureList st n fs s := by
    intro s; unfold SetEnv.Life.ensureList; rw [hr]
  have hs : SetEnv.Life.script sys st n fs' = SetEnv.Life.script sys st n fs := by
    funext s a b c d; unfold SetEnv.Life.script; simp only [he]
  have ha : SetEnv.Life.apply sys st n fs' = SetEnv.Life.apply sys st n fs := by
    funext s; unfold SetEnv.Life.apply; rw [hl]
  have hp : SetEnv.Life.listActions repr st n fs' = SetEnv.Life.listActions repr st n fs := by
    funext s; unfold SetEnv.Life.listActions; rw [hr]
  have hw : SetEnv.Life.write sys st n fs' = SetEnv.Life.write sys st n fs := by
    funext a b c d e g; unfold SetEnv.Life.write; simp only [hs]
  cases op <;> simp only [SetEnv.LOp.exec, hb, ha, hp, hs, hw]

section
open CPE.KW CPE.Cli
variable {fs fs' : FS}

theorem chooseFile_alike (h : DiskAlike fs fs') (n : Nat) : KW.chooseFile n fs' = KW.chooseFile n fs := by
  have h1 : topOp n fs' = topOp n fs := runOp_alike h baseClass n
  funext r g s k; unfold KW.chooseFile KW.topValue; rw [h1]

theorem checkTop_alike (h : DiskAlike fs fs') (n : Nat) : checkTop n fs' = checkTop n fs := by
  have h1 : topOp n fs' = topOp n fs := runOp_alike h baseClass n
  have h2 : pathExists fs' = pathExists fs := by
    funext s
    unfold pathExists
    rcases h (PPath.ofStr s).toStr with e | ⟨t, t', e, e', _⟩
    · rw [e]
    · rw [e, e']; simp
  have h3 : topValue n fs' = topValue n fs := by funext s k; unfold topValue; rw [h1]
  have h4 : topStore n fs' = topStore n fs := by funext s k v; unfold topStore; rw [h1]
  have h5 : putInPlace n fs' = putInPlace n fs := by funext i s k v; unfold putInPlace; rw [h4]
  have h6 : checkThere n fs' = checkThere n fs := by funext b s k; unfold checkThere; rw [h3, h2]
  have h7 : checkKey n fs' = checkKey n fs := by funext i b sk; unfold checkKey; rw [h1, h3, h5, h6]
  have h8 : checkSection n fs' = checkSection n fs := by funext s; unfold checkSection; rw [h1]
  funext i t; unfold checkTop; rw [h7, h8]

theorem leArgs_alike (h : DiskAlike fs fs') (n : Nat) : leArgs n fs' = leArgs n fs := by
  have h1 : leFiles n fs' = leFiles n fs := by
    funext i r g; unfold leFiles; rw [checkTop_alike h, chooseFile_alike h]
  funext i r neg argv; unfold leArgs; rw [checkTop_alike h, h1]

theorem readStep_alike (h : DiskAlike fs fs') {W : Type} : (readStep fs' : Str → M W Cfg) = readStep fs := by
  funext p w; unfold readStep readIni; rw [configdata_alike h]

/-- C90: load_env.py finds the same files and does the same with them. -/
theorem C90_load_env (h : DiskAlike fs fs') (P : Place) (n : Nat) (ini : Str) (resolve : Str → Str) (neg : Str → Bool) (argv : List Str)
    (a : LeArgs) (f1 f2 f3 : Str) :
    leArgs n fs' ini resolve neg argv = leArgs n fs ini resolve neg argv ∧ leWork P fs' a f1 f2 f3 = leWork P fs a f1 f2 f3 := by
  refine ⟨by rw [leArgs_alike h], ?_⟩
  unfold leWork
  rw [readStep_alike h]

/-- C90: and so does gen_config.py. -/
theorem C90_gen_config (h : DiskAlike fs fs') (P : Place) (n : Nat) (ini : Str) (resolve : Str → Str) (neg : Str → Bool) (argv : List Str)
    (A : GenArgs) :
    genArgs n fs' ini resolve neg argv = genArgs n fs ini resolve neg argv ∧ genWork P fs' A = genWork P fs A := by
  have h1 : GCTop.configData n fs' = GCTop.configData n fs := by
    funext i g; unfold GCTop.configData; rw [checkTop_alike h]
  have h2 : GCTop.getArgs n fs' = GCTop.getArgs n fs := by
    funext i r g; unfold GCTop.getArgs; rw [h1, chooseFile_alike h]
  have h3 : loadEnvFor P fs' A = loadEnvFor P fs A := by unfold loadEnvFor; rw [leArgs_alike h]
  have h4 : genSiteFor P fs' A = genSiteFor P fs A := by unfold genSiteFor; rw [h3, readStep_alike h]
  refine ⟨by unfold genArgs; rw [h2], ?_⟩
  unfold genWork
  rw [h3, h4, readStep_alike h]

end

/-! ### A concrete case -/

/-- The second text has comments before the first section, in a value, and at the end, blank lines after values,
a blank at the end of a line, and other line ends. -/
def plainText : Str := py!"[A]\nx: 1\n  2\nuse B:\n[B]\ny: 3\n"
def commentedText : Str := py!"# file\r\n[A]\r\nx: 1 \r\n ; more follows\r\n  2\r\n \r\nuse B:\r\n\r\n[B]\r\ny: 3\r\n#end"

def diskWith (t : Str) : FS := fun p => if p = py!"a.ini" then .file t else .absent

theorem texts_alike : SameButComments plainText commentedText := by
  refine ⟨[py!"[A]", py!"x: 1", py!"  2", py!"use B:", py!"[B]", py!"y: 3"],
    [py!"# file", py!"[A]", py!"x: 1 ", py!" ; more follows", py!"  2", py!" ", py!"use B:", [], py!"[B]", py!"y: 3", py!"#end"], ?_, ?_, ?_, ?_, ?_⟩
  · unfold OneLine; decide +kernel
  · unfold OneLine; decide +kernel
  · exact .unix (l := py!"[A]") (.unix (l := py!"x: 1") (.unix (l := py!"  2") (.unix (l := py!"use B:") (.unix (l := py!"[B]")
      (.unix (l := py!"y: 3") .nil)))))
  · exact .dos (l := py!"# file") (.dos (l := py!"[A]") (.dos (l := py!"x: 1 ") (.dos (l := py!" ; more follows") (.dos (l := py!"  2")
      (.dos (l := py!" ") (.dos (l := py!"use B:") (.dos (l := []) (.dos (l := py!"[B]") (.dos (l := py!"y: 3")
        (.last (l := py!"#end") (by decide)))))))))))
  · have b0 : Blanks [] := fun c h => by cases h
    have b1 : Blanks py!" " := by
      intro c h
      cases List.mem_singleton.1 h
      exact ⟨by decide, by decide, by decide⟩
    exact .comment (.mk (w := []) (c := '#') (t := py!" file") b0 (.inl rfl) ⟨by decide, by decide⟩) (.same (.trail (l := py!"x: 1") b1
      (.comment (.mk (w := py!" ") (c := ';') (t := py!" more follows") b1 (.inr rfl) ⟨by decide, by decide⟩) (.same
        (.blank b1 (.first (.mk (c := 'u') (by decide) (by decide) (by decide))) (.same
          (.blank b0 (.first (.mk (c := '[') (by decide) (by decide) (by decide))) (.same (.same
            (.comment (.mk (w := []) (c := '#') (t := py!"end") b0 (.inl rfl) ⟨by decide, by decide⟩) .nil))))))))))

theorem disks_alike : DiskAlike (diskWith plainText) (diskWith commentedText) := by
  intro p
  unfold diskWith
  by_cases hp : p = py!"a.ini"
  · rw [if_pos hp, if_pos hp]; exact .inr ⟨_, _, rfl, rfl, texts_alike⟩
  · rw [if_neg hp, if_neg hp]; exact .inl rfl

/-- The file is read, with the values of both sections. -/
example : ((FOp.ed (.getItem py!"A")).exec baseClass 10 (diskWith commentedText) (KW.topNew py!"a.ini")).1 =
    .ok (.ed (.opts [(py!"x", some py!"1\n2"), (py!"y", some py!"3")])) := by
  rw [C90_operation disks_alike]
  decide +kernel

/-- A `#` within a line, and a blank line within a value, are not comments. -/
example : ((FOp.ed (.getItem py!"A")).exec baseClass 10 (diskWith py!"[A]\nx: 1 # no\n\n  2\n") (KW.topNew py!"a.ini")).1 =
    .ok (.ed (.opts [(py!"x", some py!"1 # no\n\n2")])) := by decide +kernel

end CPE.Props
