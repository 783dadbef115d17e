import Verif.Proofs.Gather
/-
C76: from the texts of the files to the answers.
-/
namespace CPE.Props
open Spec

/-- The configuration that a list of documents stands for, each read on top of those before. -/
def together (docs : List Doc) : Cfg := docs.foldl (fun c doc => doc.onto c) { sections := [], commonName := common }

section
variable {f : Full Unit Unit} {n : Nat} {s : Str} {fs : FS} {ds : List Char} {ps : List Str} {docs : List Doc}
  {os ws wsD : List (Str × Option Str)} {c : Cfg}

/-- An object of the base class, with the files `ps`, that has not loaded them and not touched section `s`. -/
structure Waiting (f : Full Unit Unit) (fs : FS) (ds : List Char) (ps : List Str) (docs : List Doc) (s : Str) : Prop where
  delims : Delims f ds
  unloaded : f.cfg = none
  files : f.files = some ps
  nonempty : ps ≠ []
  texts : FilesSay fs ds ps docs
  untouched : Untouched s f.obj
  level : f.level ≤ 4

theorem together_once (docs : List Doc) : (together docs).Once := docs_once docs ⟨by simp [Dict.keys], by simp, by simp [Dict.keys]⟩

theorem waiting_load (h : Waiting f fs ds ps docs s) : (f.configdata fs).1 = .ok (together docs) := by
  have := C43_files_in_order (K := baseClass) (n := 0) h.delims h.unloaded h.files h.nonempty h.texts
  change Out.map' FVal.cfg (f.configdata fs).1 = _ at this
  cases hx : (f.configdata fs).1 with
  | ok c => rw [hx] at this; cases this; rfl
  | exc e => rw [hx] at this; cases this
  | diverge => rw [hx] at this; cases this

theorem default_iff (c : Cfg) : c.hasSection py!"DEFAULT" = true ↔ py!"DEFAULT" ∈ c.sections.map Prod.fst := Dict.mem_iff _ _

theorem prelude_unrolls (hc : c.Once) (h : Prelude c s wsD) (root : Str) :
    ∃ evD, (c.hasSection py!"DEFAULT" = true → Unrolls (baseEnv c 0) root (.sec [] py!"DEFAULT") evD) ∧
      (¬ c.hasSection py!"DEFAULT" = true → evD = []) ∧ stores evD = wsD ∧ (∀ x ∈ evD, ∀ e, ¬ Fault x e) ∧
      (c.hasSection py!"DEFAULT" = true → s = py!"DEFAULT" ∨ ¬ Reaches (baseEnv c 0) py!"DEFAULT" s) ∧
      (c.hasSection py!"DEFAULT" = true ∨ evD = []) := by
  rcases h with ⟨h1, rfl⟩ | ⟨h1, os, h2, h3⟩
  · have h1 : ¬ c.hasSection py!"DEFAULT" = true := fun h => h1 ((default_iff c).1 h)
    exact ⟨[], fun h => absurd h h1, fun _ => rfl, rfl, by simp, fun h => absurd h h1, .inr rfl⟩
  · have h1 := (default_iff c).2 h1
    obtain ⟨hn, hraw⟩ := body_raw hc h2
    obtain ⟨evs, g1, g2, g3, g4⟩ := gathers_unrolls (l := 0) (root := root) hc h3 hraw
    refine ⟨.visit py!"DEFAULT" :: evs, fun _ => .sec hn g1, fun h => absurd h1 h, g2, ?_, fun _ => ?_, .inl h1⟩
    · intro x hx e
      rcases List.mem_cons.1 hx with rfl | hx
      · intro h; cases h
      · exact g3 x hx e
    · by_cases hd : s = py!"DEFAULT"
      · exact .inl hd
      · right
        intro hr
        have hu : Unrolls (baseEnv c 0) root (.sec [] py!"DEFAULT") (.visit py!"DEFAULT" :: evs) := .sec hn g1
        cases ho : c.optionNames s with
        | none =>
          have := unrolls_covers_missing hu hr ho
          rcases List.mem_cons.1 this with h | h
          · cases h
          · exact g3 _ h _ (.missing _)
        | some keys =>
          have := unrolls_covers_visit hu hr (by show (c.optionNames s).isSome = true; rw [ho]; rfl)
          rcases List.mem_cons.1 this with h | h
          · injection h with h; exact hd h
          · rcases g4 s (mem_visits.2 h) with h | h
            · exact hd h
            · exact h rfl

theorem no_fault_hook {h : Handler Unit Unit} {hc : HCall} {e : PyExc} : ¬ Fault (.call h hc) e := by intro x; cases x

theorem gathers_sound (hc : c.Once) (hb : BodyOf c s os) (hD : Prelude c s wsD)
    (h : Gathers c (fun _ => True) [s] s os ws) :
    ∃ evs, ParseTrace (baseEnv c 0) s true true evs ∧ stores evs = wsD ++ ws ∧ ∀ x ∈ evs, ∀ e, ¬ Fault x e := by
  obtain ⟨evD, d1, d2, d3, d4, _, _⟩ := prelude_unrolls hc hD s
  obtain ⟨hn, hraw⟩ := body_raw hc hb
  obtain ⟨evs, g1, g2, g3, _⟩ := gathers_unrolls (l := 0) (root := s) hc h hraw
  refine ⟨_, .mk (evD := evD) (fun hh => d1 hh.2) (fun hh => d2 fun h => hh ⟨rfl, h⟩) (.sec hn g1), ?_, ?_⟩
  · rw [if_pos rfl, if_pos rfl]
    simp only [stores_append, stores, d3, g2, List.nil_append, List.append_nil]
  · intro x hx e
    rw [if_pos rfl, if_pos rfl] at hx
    simp only [List.mem_append, List.mem_cons, List.not_mem_nil, or_false] at hx
    rcases hx with ((rfl | hx) | rfl | hx) | rfl
    · exact no_fault_hook
    · exact d4 x hx e
    · intro h; cases h
    · exact g3 x hx e
    · exact no_fault_hook

theorem breaks_faults (hc : c.Once) (hb : BodyOf c s os) (hD : Prelude c s wsD) (h : Breaks c [s] s os) :
    Faults (baseEnv c 0) s .keyError := by
  obtain ⟨evD, d1, d2, d3, d4, _, _⟩ := prelude_unrolls hc hD s
  obtain ⟨hn, hraw⟩ := body_raw hc hb
  obtain ⟨a, t, b, g1, g2⟩ := breaks_unrolls (l := 0) (root := s) hc h hraw
  have ht : ParseTrace (baseEnv c 0) s true true _ :=
    .mk (evD := evD) (fun hh => d1 hh.2) (fun hh => d2 fun h => hh ⟨rfl, h⟩) (.sec hn g1)
  rw [if_pos rfl, if_pos rfl] at ht
  refine ⟨[.call (baseEnv c 0).hookInit (hookCall s py!"handler_initialize")] ++ evD ++ .visit s :: a, .missing t,
    b ++ [.call (baseEnv c 0).hookFinal (hookCall s py!"handler_finalize")], ?_, .missing t, ?_⟩
  · simpa using ht
  · intro x hx e
    simp only [List.mem_append, List.mem_cons, List.not_mem_nil, or_false] at hx
    rcases hx with (rfl | hx) | rfl | hx
    · exact no_fault_hook
    · exact d4 x hx e
    · intro h; cases h
    · exact g2 x hx e

/-- The answer to an access, when `configparserenhanceddata.get(s)` gives `d` or raises. -/
theorem access_from_get {E : Env Unit Unit} {o : Obj Unit Unit} (hs : E.cfg.hasSection s = true) (op : EdOp) (ha : IsAccess s op) :
    (∀ d, (edGet E n s o).1 = .ok d → (op.exec E n o).1 = match rightAnswer d op with
      | some x => .ok x
      | none => .exc .keyError) ∧
    (∀ e, parseOwner E n s false o = (.exc e, (parseOwner E n s false o).2) → (op.exec E n o).1 = .exc e) := by
  constructor
  · intro d hd
    have hd0 := hd
    rw [edGet_apply] at hd
    rcases hp : parseOwner E n s false o with ⟨x | x | _, o'⟩ <;> rw [hp] at hd <;> dsimp only at hd
    · have hg : Dict.get? o'.data s = some d := by
        unfold lookup at hd
        cases hg : Dict.get? o'.data s with
        | none => rw [hg] at hd; cases hd
        | some d' => rw [hg] at hd; cases hd; rfl
      have wrap : ∀ {α : Type} {m : M (Obj Unit Unit) α} {g : α → EdVal Unit} {a : α}, (m o).1 = .ok a →
          ((m >>= fun r => pure (g r)) o).1 = .ok (g a) := by
        intro α m g a hm
        rcases hx : m o with ⟨y | y | _, o1⟩ <;> rw [hx] at hm <;> cases hm
        rw [M.bind_ok hx]; rfl
      have wrape : ∀ {α : Type} {m : M (Obj Unit Unit) α} {g : α → EdVal Unit} {e : PyExc}, (m o).1 = .exc e →
          ((m >>= fun r => pure (g r)) o).1 = .exc e := by
        intro α m g e hm
        rcases hx : m o with ⟨y | y | _, o1⟩ <;> rw [hx] at hm <;> cases hm
        rw [M.bind_exc hx]
      cases op with
      | get t => cases ha; exact wrap hd0
      | options t => cases ha; exact wrap (by rw [edOptions_apply hs]; exact hd0)
      | getItem t =>
        cases ha
        exact wrap (m := edGetItem E n s) (by change (edOptions E n s o).1 = _; rw [edOptions_apply hs]; exact hd0)
      | items t => cases ha; exact wrap (by rw [edOptions_apply hs]; exact hd0)
      | hasOption t k =>
        cases ha
        refine (wrap (a := Dict.mem d k) (by rw [edHasOption_apply, hp]; dsimp only; rw [hg])).trans ?_
        rfl
      | hasSection t =>
        cases ha
        refine (wrap (a := true) (by rw [edHasSection_apply hs, hp]; dsimp only; unfold Dict.mem; rw [hg]; rfl)).trans ?_
        rfl
      | getOption t k =>
        cases ha
        cases hk : Dict.get? d k with
        | some v =>
          refine (wrap (a := v) (by rw [edGetOption_apply, hp]; dsimp only; rw [hg]; dsimp only; rw [hk])).trans ?_
          simp [rightAnswer, hk]
        | none =>
          refine (wrape (e := .keyError) (by rw [edGetOption_apply, hp]; dsimp only; rw [hg]; dsimp only; rw [hk])).trans ?_
          simp [rightAnswer, hk]
      | parseSection | parseAll | keys | len | sections | hasSectionNoParse | itemsAll | assertSection | assertFile | addSection | set =>
        cases ha
    · cases hd
    · cases hd
  · intro e hp
    have wrape : ∀ {α : Type} {m : M (Obj Unit Unit) α} {g : α → EdVal Unit}, (m o).1 = .exc e →
        ((m >>= fun r => pure (g r)) o).1 = .exc e := by
      intro α m g hm
      rcases hx : m o with ⟨y | y | _, o1⟩ <;> rw [hx] at hm <;> cases hm
      rw [M.bind_exc hx]
    have hget : (edGet E n s o).1 = .exc e := by rw [edGet_apply, hp]
    cases op with
    | get t => cases ha; exact wrape hget
    | options t => cases ha; exact wrape (by rw [edOptions_apply hs]; exact hget)
    | getItem t =>
      cases ha
      exact wrape (m := edGetItem E n s) (by change (edOptions E n s o).1 = _; rw [edOptions_apply hs]; exact hget)
    | items t => cases ha; exact wrape (by rw [edOptions_apply hs]; exact hget)
    | hasOption t k => cases ha; exact wrape (by rw [edHasOption_apply, hp])
    | hasSection t => cases ha; exact wrape (by rw [edHasSection_apply hs, hp])
    | getOption t k => cases ha; exact wrape (by rw [edGetOption_apply, hp])
    | parseSection | parseAll | keys | len | sections | hasSectionNoParse | itemsAll | assertSection | assertFile | addSection | set =>
      cases ha

/-- C76: from texts to answers. If the texts of the files of an object of the base class say the documents `docs`, and
the options of section `s` of these documents taken together, with each `use` replaced by what the used section gives,
are the list `ws` (`wsD` for the DEFAULT section), then every way to access `s` gives the answer of one dict: that in
which the options of `wsD` and `ws` are written in order. -/
theorem C76_answers (hw : Waiting f fs ds ps docs s) (hn : (together docs).sectionNames.length + 3 ≤ n + 1)
    (hs : s ∈ (together docs).sectionNames) (hne : s ≠ []) (hb : BodyOf (together docs) s os)
    (hD : Prelude (together docs) s wsD) (hg : Gathers (together docs) (fun _ => True) [s] s os ws) :
    ∃ d, LastWins (wsD ++ ws) d ∧ ∀ op, IsAccess s op →
      ((FOp.ed op).exec baseClass (n + 1) fs f).1 = match rightAnswer d op with
        | some x => .ok (.ed x)
        | none => .exc .keyError := by
  have hl := waiting_load hw
  have hone := together_once docs
  generalize together docs = c at hl hone hn hs hb hD hg
  have hE : f.env baseClass c = baseEnv c f.level := rfl
  obtain ⟨evs, h1, h2, h3⟩ := gathers_sound hone hb hD hg
  obtain ⟨_, _, _, _, _, hap, _⟩ := prelude_unrolls hone hD s
  obtain ⟨d, g1, g2⟩ := (edGet_base hw.level hne hw.untouched hn hap).1 ⟨evs, h1, h3⟩
  obtain ⟨evs', k1, k2⟩ := g2
  rw [parseTrace_det k1 h1, h2] at k2
  refine ⟨d, k2, fun op ha => ?_⟩
  change Out.map' FVal.ed (f.runOp baseClass (n + 1) fs op).1 = _
  rw [(runOp_loaded baseClass n fs op f hl (by rw [hw.files]; simp)).1, hE,
    (access_from_get (E := baseEnv c f.level) ((Dict.mem_iff _ _).2 hs) op ha).1 d g1]
  cases rightAnswer (δ := Unit) d op <;> rfl

/-- C76: if instead, along the same way, a section is used that is in none of the files, every access to `s` raises
KeyError. -/
theorem C76_breaks (hw : Waiting f fs ds ps docs s) (hn : (together docs).sectionNames.length + 3 ≤ n + 1)
    (hs : s ∈ (together docs).sectionNames) (hne : s ≠ []) (hb : BodyOf (together docs) s os)
    (hD : Prelude (together docs) s wsD) (hg : Breaks (together docs) [s] s os) (op : EdOp) (ha : IsAccess s op) :
    ((FOp.ed op).exec baseClass (n + 1) fs f).1 = .exc .keyError := by
  have hl := waiting_load hw
  have hone := together_once docs
  generalize together docs = c at hl hone hn hs hb hD hg
  have hE : f.env baseClass c = baseEnv c f.level := rfl
  obtain ⟨_, _, _, _, _, hap, _⟩ := prelude_unrolls hone hD s
  have g := (edGet_base hw.level hne hw.untouched hn hap).2 _ (breaks_faults hone hb hD hg)
  have hp : parseOwner (baseEnv c f.level) (n + 1) s false f.obj =
      (.exc .keyError, (parseOwner (baseEnv c f.level) (n + 1) s false f.obj).2) := by
    have g' := g
    rw [edGet_apply] at g'
    rcases hp : parseOwner (baseEnv c f.level) (n + 1) s false f.obj with ⟨x | x | _, o'⟩ <;> rw [hp] at g' <;> dsimp only at g'
    · have hset : Settled (baseEnv c f.level) s f.obj := ⟨fun hc => absurd hc hw.untouched.1, fun _ => hw.untouched.2⟩
      obtain ⟨d, h1, _⟩ := parseOwner_settled hset hp
      unfold lookup at g'
      rw [h1] at g'
      cases g'
    · cases g'; rfl
    · cases g'
  change Out.map' FVal.ed (f.runOp baseClass (n + 1) fs op).1 = _
  rw [(runOp_loaded baseClass n fs op f hl (by rw [hw.files]; simp)).1, hE,
    (access_from_get (E := baseEnv c f.level) ((Dict.mem_iff _ _).2 hs) op ha).2 _ hp]
  rfl

/-- C76: what is gathered is unique: there is one answer. -/
theorem C76_one_answer (docs : List Doc) {ws' : List (Str × Option Str)} (hb : BodyOf (together docs) s os)
    (h : Gathers (together docs) (fun _ => True) [s] s os ws) (h' : Gathers (together docs) (fun _ => True) [s] s os ws') :
    ws = ws' ∧ ¬ Breaks (together docs) [s] s os := by
  have hone := together_once docs
  generalize together docs = c at hone hb h h'
  obtain ⟨hn, hraw⟩ := body_raw hone hb
  obtain ⟨evs, g1, g2, g3, _⟩ := gathers_unrolls (l := 0) (root := s) hone h hraw
  obtain ⟨evs', g1', g2', _, _⟩ := gathers_unrolls (l := 0) (root := s) hone h' hraw
  constructor
  · rw [← g2, ← g2', unrolls_det g1 g1']
  · intro hbr
    obtain ⟨a, t, b, k1, _⟩ := breaks_unrolls (l := 0) (root := s) hone hbr hraw
    rw [unrolls_det g1 k1] at g3
    exact g3 (.missing t) (by simp) .keyError (.missing t)

end

/-! ### An example: two files, a DEFAULT section, a cycle, a reference, and a use of a section that is missing -/

namespace GatherExample
open IniExample

def text : Str := py!"[DEFAULT]\nbase: 0\n[A]\nuse B\nk: %(j)s\nj: \"5\"\n[B]\nuse A\nbase: 1\n"

def doc : Doc :=
  [(py!"DEFAULT", [(py!"base", some [py!"0"])]),
   (py!"A", [(py!"use B", none), (py!"k", some [py!"%(j)s"]), (py!"j", some [py!"\"5\""])]),
   (py!"B", [(py!"use A", none), (py!"base", some [py!"1"])])]

theorem line {k v d : Str} (h : GoodKey ds k ∧ Tight v ∧ OneLine v ∧ d = k ++ py!": " ++ v := by decide +kernel) :
    OptionText ds 0 [d] (k, some [v]) := by
  obtain ⟨h1, h2, h3, rfl⟩ := h
  exact .value (value (w := []) (a := []) (c := ':') (b := [' ']) (e := []) ⟨⟨by simp [Blanks], rfl, h1, by simp [Blanks],
    by decide, by intro c hc; rw [List.mem_singleton.1 hc]; decide, h2, h3, by simp [Blanks]⟩, by simp⟩) .nil

theorem key {k : Str} (h : GoodKey ds k := by decide +kernel) : OptionText ds 0 [k] (k, none) :=
  .bare (bare (w := []) (e := []) ⟨⟨by simp [Blanks], rfl, h, by simp [Blanks]⟩, by simp⟩) (by simp)

theorem head {name d : Str} (h : (name ≠ [] ∧ OneLine name) ∧ d = '[' :: name ++ [']'] := by decide +kernel) : HeaderLine name d :=
  header (junk := []) ⟨⟨h.1.1, h.1.2, by decide, by simp⟩, h.2⟩

theorem says : Says ds text doc := by
  refine ⟨[], [py!"[DEFAULT]", py!"base: 0", py!"[A]", py!"use B", py!"k: %(j)s", py!"j: \"5\"", py!"[B]", py!"use A", py!"base: 1"],
    by simp, ?_, ?_⟩
  · refine .cons (skip := []) (i := 0) (ls := [py!"base: 0"]) head (by simp) (.cons (ls' := []) line .nil) ?_
    refine .cons (skip := []) (i := 0) (ls := [py!"use B", py!"k: %(j)s", py!"j: \"5\""]) head (by simp)
      (.cons (ls := [py!"use B"]) key (.cons (ls := [py!"k: %(j)s"]) line (.cons (ls' := []) line .nil))) ?_
    exact .cons (skip := []) (i := 0) (ls := [py!"use A", py!"base: 1"]) (ls' := []) head (by simp)
      (.cons (ls := [py!"use A"]) key (.cons (ls' := []) line .nil)) .nil
  · exact .unix (.unix (.unix (.unix (.unix (.unix (.unix (.unix (.unix .nil))))))))

def text2 : Str := py!"[A]\nuse C\n[E]\nuse D\n[C]\nlast\n"

def doc2 : Doc := [(py!"A", [(py!"use C", none)]), (py!"E", [(py!"use D", none)]), (py!"C", [(py!"last", none)])]

theorem says2 : Says ds text2 doc2 := by
  refine ⟨[], [py!"[A]", py!"use C", py!"[E]", py!"use D", py!"[C]", py!"last"], by simp, ?_, ?_⟩
  · exact .cons (skip := []) (i := 0) (ls := [py!"use C"]) head (by simp) (.cons (ls' := []) key .nil)
      (.cons (skip := []) (i := 0) (ls := [py!"use D"]) head (by simp) (.cons (ls' := []) key .nil)
      (.cons (skip := []) (i := 0) (ls := [py!"last"]) (ls' := []) head (by simp) (.cons (ls' := []) key .nil) .nil))
  · exact .unix (.unix (.unix (.unix (.unix (.unix .nil)))))

def files : FS := fun p => if p = py!"a" then .file text else if p = py!"b" then .file text2 else .absent

theorem waiting (s : Str) : Waiting (newOn [py!"a", py!"b"]) files ds [py!"a", py!"b"] [doc, doc2] s where
  delims := ⟨rfl, by decide, by decide +kernel⟩
  unloaded := by rfl
  files := by rfl
  nonempty := by decide
  texts := .read (by rfl) says (by decide +kernel) (.read (by rfl) says2 (by decide +kernel) .nil)
  untouched := by rw [newOn_eq]; exact untouched_fresh _ _ _
  level := by decide +kernel

theorem words {k : Str} {ws : List Str} (h : shlexSplit k = .ok ws := by decide +kernel) : Words k ws := (C31_split_iff_words _ _).1 h

theorem shown {c : Cfg} {s v x : Str} {u : Option Str}
    (h : Cfg.interpolate (c.rawValue s) v = .ok x ∧ u = some (stripQuotes (strip x))) : ShownAs c s (some v) u :=
  .text ((interpSome_iff _ _ _).1 h.1) ((cleaned_iff _ _).2 h.2)

/-- The options of the sections of both files. -/
def opts : Str → List (Str × Option Str)
  | ['A'] => [(py!"use B", none), (py!"k", some py!"%(j)s"), (py!"j", some py!"\"5\""), (py!"use C", none)]
  | ['B'] => [(py!"use A", none), (py!"base", some py!"1")]
  | ['C'] => [(py!"last", none)]
  | ['E'] => [(py!"use D", none)]
  | _ => [(py!"base", some py!"0")]

theorem body {s : Str} (h : (s, opts s) ∈ (together [doc, doc2]).sections ∧ s ≠ common := by decide +kernel) :
    BodyOf (together [doc, doc2]) s (opts s) :=
  .inr ⟨h.2, opts s, h.1, (List.append_nil _).symm⟩

theorem plain {c : Cfg} {ok : Str → Prop} {path : List Str} {s k : Str} {v u : Option Str} {os ws : List (Str × Option Str)}
    (hv : ShownAs c s v u) (h : Gathers c ok path s os ws)
    (hk : Tight k ∧ shlexSplit k = .ok [k] ∧ k ≠ py!"use" ∧ k ≠ py!"initialize" ∧ k ≠ py!"finalize" := by decide +kernel) :
    Gathers c ok path s ((k, v) :: os) ((k, u) :: ws) :=
  .own hk.1 ⟨[], words hk.2.1⟩ hk.2.2.1 hk.2.2.2.1 hk.2.2.2.2 hv h

theorem default : Prelude (together [doc, doc2]) py!"A" [(py!"base", some py!"0")] :=
  .inr ⟨by decide +kernel, _, body, plain
    (shown (x := py!"0") (by decide +kernel)) .nil⟩

theorem gathered : Gathers (together [doc, doc2]) (fun _ => True) [py!"A"] py!"A" (opts py!"A")
    [(py!"base", some py!"1"), (py!"k", some py!"5"), (py!"j", some py!"5"), (py!"last", none)] := by
  refine .use (ws' := [(py!"base", some py!"1")]) (by decide +kernel) (words (ws := [py!"use", py!"B"])) .none (by decide) trivial body ?_ ?_
  · exact .again (by decide +kernel) (words (ws := [py!"use", py!"A"])) .none (by decide)
      (plain (shown (x := py!"1") (by decide +kernel)) .nil)
  · refine plain (shown (x := py!"\"5\"") (by decide +kernel)) ?_
    refine plain (shown (x := py!"\"5\"") (by decide +kernel)) ?_
    exact .use (ws' := [(py!"last", none)]) (by decide +kernel) (words (ws := [py!"use", py!"C"])) .none (by decide) trivial body
      (plain .none .nil) .nil

/-- C76 on the example: what a user sees of section A. -/
example : ((FOp.ed (.getItem py!"A")).exec baseClass 9 files (newOn [py!"a", py!"b"])).1 =
    .ok (.ed (.opts [(py!"base", some py!"1"), (py!"k", some py!"5"), (py!"j", some py!"5"), (py!"last", none)])) := by
  obtain ⟨d, h1, h2⟩ := C76_answers (n := 8) (waiting py!"A") (by decide +kernel) (by decide +kernel) (by decide) body default gathered
  rw [h2 (.getItem py!"A") rfl, lastWins_iff.1 h1]
  rfl

example : ((FOp.ed (.hasOption py!"A" py!"nothing")).exec baseClass 9 files (newOn [py!"a", py!"b"])).1 = .ok (.ed (.bool false)) ∧
    ((FOp.ed (.getOption py!"A" py!"nothing")).exec baseClass 9 files (newOn [py!"a", py!"b"])).1 = .exc .keyError := by
  obtain ⟨d, h1, h2⟩ := C76_answers (n := 8) (waiting py!"A") (by decide +kernel) (by decide +kernel) (by decide) body default gathered
  rw [h2 (.hasOption py!"A" _) rfl, h2 (.getOption py!"A" _) rfl, lastWins_iff.1 h1]
  exact ⟨rfl, rfl⟩

/-- Section E uses D, which is in neither file. -/
example : ((FOp.ed (.get py!"E")).exec baseClass 9 files (newOn [py!"a", py!"b"])).1 = .exc .keyError :=
  C76_breaks (n := 8) (waiting py!"E") (by decide +kernel) (by decide +kernel) (by decide) body
    (.inr ⟨by decide +kernel, _, body, plain (u := some py!"0")
      (shown (x := py!"0") (by decide +kernel)) .nil⟩)
    (.here (t := py!"D") (by decide +kernel) (words (ws := [py!"use", py!"D"])) .none (by decide) (by
      rintro os (⟨h, _⟩ | ⟨_, own, h, _⟩)
      · revert h; decide +kernel
      · have : py!"D" ∈ Dict.keys (together [doc, doc2]).sections := List.mem_map.2 ⟨_, h, rfl⟩
        revert this; decide +kernel)) _ rfl

/-- C76, one answer, on the example. -/
example : ¬ Breaks (together [doc, doc2]) [py!"A"] py!"A" (opts py!"A") := (C76_one_answer _ body gathered gathered).2

end GatherExample
end CPE.Props
