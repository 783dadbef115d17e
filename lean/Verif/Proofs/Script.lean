import Verif.Proofs.Apply
/-
Generated scripts (wip/setenvironment).
-/
namespace CPE.SetEnv
open CPE.Spec CPE.SetEnv.Spec

theorem bodyLines_lines (E : Env Shared Actions) {interp : Str} {l : List Action} {ls : List Str}
    (h : CommandLines interp l ls) (w : World Shared Actions) :
    bodyLines E interp l w = (.ok (ls.map (· ++ py!"\n")).flatten, w) := by
  induction h with
  | nil => rfl
  | cons hl _ ih =>
    unfold bodyLines
    rw [M.bind_def, genAction_line E hl]
    dsimp only
    rw [M.bind_def, ih]
    rfl

theorem bodyLines_incomplete (E : Env Shared Actions) {interp : Str} (hi : interp = py!"bash" ∨ interp = py!"python")
    {l₁ l₂ : List Action} {a : Action} {ls : List Str} (h : CommandLines interp l₁ ls) (ha : Incomplete a)
    (w : World Shared Actions) : bodyLines E interp (l₁ ++ a :: l₂) w = (.exc .typeError, w) := by
  induction h with
  | nil =>
    rw [List.nil_append]
    unfold bodyLines
    rw [M.bind_def, genAction_incomplete E hi ha]
  | cons hl _ ih =>
    rw [List.cons_append]
    unfold bodyLines
    rw [M.bind_def, genAction_line E hl]
    dsimp only
    rw [M.bind_def, ih]

/-- Every action of a list has a line, or lacks something. -/
theorem does_line {sys : Sys} {interp : Str} (hi : interp = py!"bash" ∨ interp = py!"python") {a : Action}
    {m : M Environ Int} (h : Does sys a m) : (∃ l, CommandLine interp a l) ∨ Incomplete a := by
  cases h with
  | unset h => rcases hi with rfl | rfl
               · exact .inl ⟨_, .shEnvvar h⟩
               · exact .inl ⟨_, .pyEnvvar h⟩
  | envvar h => rcases hi with rfl | rfl
                · exact .inl ⟨_, .shEnvvar h⟩
                · exact .inl ⟨_, .pyEnvvar h⟩
  | module h => rcases hi with rfl | rfl
                · exact .inl ⟨_, .shModule h⟩
                · exact .inl ⟨_, .pyModule h⟩
  | incomplete h => exact .inr h

theorem program_lines {sys : Sys} {interp : Str} (hi : interp = py!"bash" ∨ interp = py!"python") {l : List Action}
    {ms : List (M Environ Int)} (h : Program sys l ms) :
    (∃ ls, CommandLines interp l ls) ∨
      ∃ l₁ a l₂ ls, l = l₁ ++ a :: l₂ ∧ CommandLines interp l₁ ls ∧ Incomplete a := by
  induction h with
  | nil => exact .inl ⟨_, .nil⟩
  | cons hd _ ih =>
    rcases does_line hi hd with ⟨x, hx⟩ | hx
    · rcases ih with ⟨ls, hls⟩ | ⟨l₁, a, l₂, ls, rfl, h1, h2⟩
      · exact .inl ⟨_, .cons hx hls⟩
      · exact .inr ⟨_ :: l₁, a, l₂, _, rfl, .cons hx h1, h2⟩
    · exact .inr ⟨[], _, _, _, rfl, .nil, hx⟩

/-! ### The text -/

theorem scriptText_none (sys : Sys) (interp : Str) (hdr sheb : Bool) :
    (if hdr = true then
        (if sheb = true then shebang interp else []) ++
          (if interp = py!"bash" then sys.bashHeader else sys.pythonHeader) ++ py!"\n\n"
      else []) = scriptText sys interp hdr sheb none := by
  unfold scriptText shebang
  cases hdr <;> cases sheb <;> simp
  split <;> rfl

theorem scriptText_some (sys : Sys) (interp : Str) (hdr sheb : Bool) (ls : List Str) :
    (if sheb = true ∧ hdr = false then
        (if hdr = true then
          (if sheb = true then shebang interp else []) ++
            (if interp = py!"bash" then sys.bashHeader else sys.pythonHeader) ++ py!"\n\n"
        else []) ++ shebang interp
      else
        (if hdr = true then
          (if sheb = true then shebang interp else []) ++
            (if interp = py!"bash" then sys.bashHeader else sys.pythonHeader) ++ py!"\n\n"
        else [])) ++ bodyHeader ++ (ls.map (· ++ py!"\n")).flatten ++ py!"\n\n" =
      scriptText sys interp hdr sheb (some ls) := by
  have hb : bodyHeader = banner := rfl
  unfold scriptText shebang
  rw [hb]
  cases hdr <;> cases sheb <;> simp
  · split <;> rfl
  · split <;> rfl

theorem scriptText_bad {sys : Sys} {E : Env Shared Actions} {n : Nat} {s : Str} {hdr body sheb : Bool} {interp : Str}
    (hi : interp ≠ py!"bash" ∧ interp ≠ py!"python") (st : State) :
    generateScript sys E n s hdr body sheb interp st =
      (do onObj (liftW (ecEvent E .serious .valueError)); pure [] : M State Str) st := by
  unfold generateScript
  rw [if_pos hi]

section
variable {sys : Sys} {E : Env Shared Actions} {n : Nat} {s : Str} {hdr sheb : Bool} {interp : Str}
  (hi : interp = py!"bash" ∨ interp = py!"python") (st : State)
include hi

theorem not_bad : ¬ (interp ≠ py!"bash" ∧ interp ≠ py!"python") := by
  rintro ⟨h1, h2⟩
  rcases hi with h | h
  · exact h1 h
  · exact h2 h

theorem generate_header : generateScript sys E n s hdr false sheb interp st =
    (.ok (scriptText sys interp hdr sheb none), st) := by
  unfold generateScript
  rw [if_neg (not_bad hi)]
  dsimp only
  rw [if_neg (by simp), scriptText_none]
  rfl

omit hi in
/-- The part of the generator after the parse. -/
theorem generate_body {l : List Action} (hl : Dict.get? st.obj.self s = some l) (top : Str) {x : Out Str}
    (hb : bodyLines E interp l st.obj.toWorld = (x, st.obj.toWorld)) :
    (do let l ← actionsOf s
        let lines ← onObj (liftW (bodyLines E interp l))
        pure (top ++ bodyHeader ++ lines ++ py!"\n\n") : M State Str) st =
      (match x with
        | .ok t => .ok (top ++ bodyHeader ++ t ++ py!"\n\n")
        | .exc e => .exc e
        | .diverge => .diverge, st) := by
  have h1 : actionsOf s st = (.ok l, st) := by unfold actionsOf; rw [M.read_bind, hl]; rfl
  have h2 : onObj (liftW (bodyLines E interp l)) st = (x, st) := by unfold onObj liftW; dsimp only; rw [hb]
  rw [M.bind_def, h1]
  dsimp only
  rw [M.bind_def, h2]
  cases x <;> rfl

omit hi in
theorem mem_eq_get {V : Type} (d : Dict Str V) (k : Str) : Dict.mem d k = false ↔ Dict.get? d k = none := by
  unfold Dict.mem
  cases Dict.get? d k <;> simp

/-- The state in which the commands are generated: section `s` has been parsed if it had no list yet. -/
def Ready (E : Env Shared Actions) (n : Nat) (s : Str) (st st₁ : State) : Prop :=
  (Dict.get? st.obj.self s ≠ none ∧ st₁ = st) ∨
  (Dict.get? st.obj.self s = none ∧ ∃ r, (parseSection E n s true true st.obj).1 = .ok r ∧
    st₁ = { st with obj := (parseSection E n s true true st.obj).2 })

variable {st} {st₁ : State}

theorem generate_ready (hst : Ready E n s st st₁) {l : List Action} (hl : Dict.get? st₁.obj.self s = some l) {x : Out Str}
    (hb : bodyLines E interp l st₁.obj.toWorld = (x, st₁.obj.toWorld)) (y : Out Str)
    (hy : match x with
      | .ok t => ∃ ls : List Str, t = (ls.map (· ++ py!"\n")).flatten ∧ y = .ok (scriptText sys interp hdr sheb (some ls))
      | .exc e => y = .exc e
      | .diverge => y = .diverge) :
    generateScript sys E n s hdr true sheb interp st = (y, st₁) := by
  unfold generateScript
  rw [if_neg (not_bad hi)]
  dsimp only
  rw [if_pos rfl, M.read_bind]
  rcases hst with ⟨h1, rfl⟩ | ⟨h1, r, h2, h3⟩
  · rw [if_neg (by rw [mem_eq_get]; exact h1), generate_body _ hl _ hb]
    cases x with
    | ok t =>
      obtain ⟨ls, rfl, rfl⟩ := hy
      dsimp only
      rw [scriptText_some]
    | exc e => dsimp only at hy; rw [hy]
    | diverge => dsimp only at hy; rw [hy]
  · rw [if_pos ((mem_eq_get _ _).2 h1)]
    have h4 : onObj (parseSection E n s true true) st = (.ok r, st₁) := by
      unfold onObj; rw [h2, h3]
    rw [M.bind_def, h4]
    dsimp only
    rw [generate_body _ hl _ hb]
    cases x with
    | ok t =>
      obtain ⟨ls, rfl, rfl⟩ := hy
      dsimp only
      rw [scriptText_some]
    | exc e => dsimp only at hy; rw [hy]
    | diverge => dsimp only at hy; rw [hy]

theorem generate_unparsed (h1 : Dict.get? st.obj.self s = none) {x : Out Shared} {o' : Obj Shared Actions}
    (hp : parseSection E n s true true st.obj = (x, o')) (y : Out Str)
    (hy : (∃ e, x = .exc e ∧ y = .exc e) ∨ x = .diverge ∧ y = .diverge) :
    generateScript sys E n s hdr true sheb interp st = (y, { st with obj := o' }) := by
  unfold generateScript
  rw [if_neg (not_bad hi)]
  dsimp only
  rw [if_pos rfl, M.read_bind, if_pos ((mem_eq_get _ _).2 h1)]
  have h4 : onObj (parseSection E n s true true) st = (x, { st with obj := o' }) := by
    unfold onObj; rw [hp]
  rw [M.bind_def, h4]
  rcases hy with ⟨e, rfl, rfl⟩ | ⟨rfl, rfl⟩ <;> rfl

theorem generate_no_list (hst : Ready E n s st st₁) (hl : Dict.get? st₁.obj.self s = none) :
    generateScript sys E n s hdr true sheb interp st = (.exc .keyError, st₁) := by
  unfold generateScript
  rw [if_neg (not_bad hi)]
  dsimp only
  rw [if_pos rfl, M.read_bind]
  have h0 : actionsOf s st₁ = (.exc .keyError, st₁) := by unfold actionsOf; rw [M.read_bind, hl]; rfl
  rcases hst with ⟨h1, rfl⟩ | ⟨h1, r, h2, h3⟩
  · exact absurd hl h1
  · rw [if_pos ((mem_eq_get _ _).2 h1)]
    have h4 : onObj (parseSection E n s true true) st = (.ok r, st₁) := by
      unfold onObj; rw [h2, h3]
    rw [M.bind_def, h4]
    dsimp only
    rw [M.bind_def, h0]

end

/-! ### Running a script -/

theorem dropWhile_line {a : Str} (ha : '\n' ∉ a) (rest : Str) : (a ++ '\n' :: rest).dropWhile (· ≠ '\n') = '\n' :: rest := by
  induction a with
  | nil => rfl
  | cons c a ih =>
    simp only [List.mem_cons, not_or] at ha
    rw [List.cons_append, List.dropWhile_cons, if_pos (decide_eq_true (Ne.symm ha.1)), ih ha.2]

/-- A comment line is passed over. -/
theorem readProgram_comment {a : Str} (ha : '\n' ∉ a) (rest : Str) (k : Nat) :
    readProgram (k + 2) ('#' :: a ++ '\n' :: rest) = readProgram k rest := by
  rw [List.cons_append, readProgram, if_neg (by decide), if_pos rfl, dropWhile_line ha, readProgram, if_pos rfl]

/-- The calls of actions. -/
inductive CallsOf : List Action → List (Str × List Str) → Prop
  | nil : CallsOf [] []
  | cons {a f ws xs l cs} : Calls a f ws → Literals ws xs → CallsOf l cs → CallsOf (a :: l) ((f, xs) :: cs)

theorem calls_name {a : Action} {f : Str} {ws : List Str} (h : Calls a f ws) :
    '(' ∉ f ∧ ws ≠ [] ∧ ∃ c g, f = c :: g ∧ c ≠ '\n' ∧ c ≠ '#' := by
  cases h with
  | envvar h => exact ⟨by decide, EnvvarWords.ne_nil h, _, _, rfl, by decide, by decide⟩
  | module h => exact ⟨by decide, ModuleWords.ne_nil h, _, _, rfl, by decide, by decide⟩

theorem calls_det {a : Action} {f f' : Str} {ws ws' : List Str} (h : Calls a f ws) (h' : Calls a f' ws') : f = f' ∧ ws = ws' := by
  obtain ⟨d1, d2, d3, d4, d5⟩ := @words_det a
  cases h with
  | envvar h => cases h' with
    | envvar h' => exact ⟨rfl, d1 _ _ h h'⟩
    | module h' => exact (d3 _ _ h h').elim
  | module h => cases h' with
    | envvar h' => exact (d3 _ _ h' h).elim
    | module h' => exact ⟨rfl, d2 _ _ h h'⟩

theorem calls_line {a : Action} {l : Str} (h : CommandLine py!"python" a l) : ∃ f ws, Calls a f ws ∧ l = pythonCommand f ws := by
  cases h with
  | pyEnvvar h => exact ⟨_, _, .envvar h, rfl⟩
  | pyModule h => exact ⟨_, _, .module h, rfl⟩

/-- A call is read, and what follows it. -/
theorem readProgram_call {a : Action} {f : Str} {ws xs : List Str} (h : Calls a f ws) (hx : Literals ws xs) (rest : Str) (k : Nat) :
    readProgram (k + 2) (pythonCommand f ws ++ '\n' :: rest) = ((f, xs) :: ·) <$> readProgram k rest := by
  obtain ⟨h1, h2, c, g, hf, h3, h4⟩ := calls_name h
  have hr := readCall_literals h1 h2 hx ('\n' :: rest)
  obtain ⟨t, ht⟩ : ∃ t, pythonCommand f ws ++ '\n' :: rest = c :: t := by
    rw [hf]; unfold pythonCommand; exact ⟨_, rfl⟩
  rw [ht] at hr ⊢
  rw [readProgram, if_neg h3, if_neg h4, hr]
  dsimp only
  rw [if_pos (by rfl), readProgram, if_pos rfl]

theorem readProgram_erroneous {a : Action} {f : Str} {ws : List Str} (h : Calls a f ws) (he : Erroneous ws) (rest : Str) (k : Nat) :
    readProgram (k + 1) (pythonCommand f ws ++ '\n' :: rest) = syntaxError := by
  obtain ⟨h1, h2, c, g, hf, h3, h4⟩ := calls_name h
  have hr := readCall_erroneous h1 he ('\n' :: rest) (.inr rfl)
  obtain ⟨t, ht⟩ : ∃ t, pythonCommand f ws ++ '\n' :: rest = c :: t := by
    rw [hf]; unfold pythonCommand; exact ⟨_, rfl⟩
  rw [ht] at hr ⊢
  rw [readProgram, if_neg h3, if_neg h4, hr]
  rfl

/-- The text of the commands. -/
def commandsText (ls : List Str) : Str := (ls.map (· ++ py!"\n")).flatten ++ py!"\n\n"

theorem commandsText_cons (l : Str) (ls : List Str) : commandsText (l :: ls) = l ++ '\n' :: commandsText ls := by
  unfold commandsText
  rw [List.map_cons, List.flatten_cons, List.append_assoc, List.append_assoc]
  rfl

theorem readProgram_commands {l : List Action} {ls : List Str} (hl : CommandLines py!"python" l ls) {cs : List (Str × List Str)}
    (hc : CallsOf l cs) : ∀ k, (commandsText ls).length ≤ k → readProgram k (commandsText ls) = .ok cs := by
  induction hl generalizing cs with
  | nil =>
    cases hc
    intro k hk
    cases k with
    | zero => cases hk
    | succ k => cases k with
      | zero => exact absurd hk (by decide)
      | succ k => show readProgram k [] = _; cases k <;> rfl
  | @cons a x l ls h1 _ ih =>
    cases hc with
    | @cons _ f ws xs _ cs hcall hlit hcs =>
      obtain ⟨f', ws', hcall', rfl⟩ := calls_line h1
      obtain ⟨rfl, rfl⟩ := calls_det hcall hcall'
      intro k hk
      rw [commandsText_cons] at hk ⊢
      obtain ⟨_, _, c, g, hf, _⟩ := calls_name hcall
      have hlen : 1 ≤ (pythonCommand f ws).length := by rw [hf]; unfold pythonCommand; simp
      simp only [List.length_append, List.length_cons] at hk
      obtain ⟨k, rfl⟩ : ∃ j, k = j + 2 := ⟨k - 2, by omega⟩
      rw [readProgram_call hcall hlit, ih hcs k (by omega)]
      rfl

theorem readProgram_illegible {l : List Action} {ls : List Str} (hl : CommandLines py!"python" l ls) {l₁ l₂ : List Action} {a : Action}
    (e : l = l₁ ++ a :: l₂) (h₁ : ∀ b ∈ l₁, Legible b) (ha : Illegible a) :
    ∀ k, (commandsText ls).length ≤ k → readProgram k (commandsText ls) = syntaxError := by
  induction hl generalizing l₁ with
  | nil => cases l₁ <;> cases e
  | @cons b x l ls h1 _ ih =>
    obtain ⟨f', ws', hcall', rfl⟩ := calls_line h1
    obtain ⟨_, _, c, g, hf, _⟩ := calls_name hcall'
    have hlen : 1 ≤ (pythonCommand f' ws').length := by rw [hf]; unfold pythonCommand; simp
    intro k hk
    rw [commandsText_cons] at hk ⊢
    simp only [List.length_append, List.length_cons] at hk
    obtain ⟨k, rfl⟩ : ∃ j, k = j + 2 := ⟨k - 2, by omega⟩
    cases l₁ with
    | nil =>
      cases e
      obtain ⟨f, ws, hcall, he⟩ := ha
      obtain ⟨rfl, rfl⟩ := calls_det hcall hcall'
      exact readProgram_erroneous hcall he _ _
    | cons b' l₁ =>
      cases e
      obtain ⟨f, ws, xs, hcall, hlit⟩ := h₁ _ (.head _)
      obtain ⟨rfl, rfl⟩ := calls_det hcall hcall'
      rw [readProgram_call hcall hlit, ih rfl (fun y hy => h₁ y (.tail _ hy)) k (by omega)]
      rfl

/-- Banner and first line are passed over. -/
theorem readProgram_script (sys : Sys) (sheb : Bool) (ls : List Str) {r : Except PyExc (List (Str × List Str))}
    (h : ∀ k, (commandsText ls).length ≤ k → readProgram k (commandsText ls) = r) :
    readProgram (scriptText sys py!"python" false sheb (some ls)).length (scriptText sys py!"python" false sheb (some ls)) = r := by
  have hb : ∀ k, (banner ++ commandsText ls).length ≤ k → readProgram k (banner ++ commandsText ls) = r := by
    intro k hk
    have h6 : 6 ≤ banner.length := by decide +kernel
    rw [List.length_append] at hk
    obtain ⟨j, rfl⟩ : ∃ j, k = j + 2 + 2 + 2 := ⟨k - 6, by omega⟩
    show readProgram (j + 2 + 2 + 2) ('#' :: py!" -------------------------------------------------" ++ '\n' ::
      ('#' :: py!"   S E T E N V I R O N M E N T   C O M M A N D S" ++ '\n' ::
        ('#' :: py!" -------------------------------------------------" ++ '\n' :: commandsText ls))) = r
    rw [readProgram_comment (by decide +kernel), readProgram_comment (by decide +kernel), readProgram_comment (by decide +kernel)]
    exact h j (by omega)
  have e : scriptText sys py!"python" false sheb (some ls) =
      (if sheb = true then py!"#!/usr/bin/env python3\n" else []) ++ (banner ++ commandsText ls) := by
    unfold scriptText commandsText
    cases sheb
    · simp
    · simp
  rw [e]
  cases sheb with
  | false => exact hb _ (Nat.le_refl _)
  | true =>
    rw [if_pos rfl]
    obtain ⟨j, h1, h2⟩ : ∃ j, (py!"#!/usr/bin/env python3\n" ++ (banner ++ commandsText ls)).length = j + 2 ∧
        (banner ++ commandsText ls).length ≤ j := by
      have h3 : (py!"#!/usr/bin/env python3\n").length = 23 := by decide +kernel
      refine ⟨21 + (banner ++ commandsText ls).length, ?_, by omega⟩
      rw [List.length_append, h3]
      omega
    rw [h1]
    show readProgram (j + 2) ('#' :: py!"!/usr/bin/env python3" ++ '\n' :: (banner ++ commandsText ls)) = r
    rw [readProgram_comment (by decide +kernel)]
    exact hb j h2

/-- To perform actions that can be read is to run their calls. -/
theorem performing_calls {sys : Sys} {l : List Action} {ms : List (M Environ Int)} (hp : Performing sys l ms) (hl : ∀ a ∈ l, Legible a)
    (hdet : ∀ w x y, Literal w x → Literal w y → x = y) (hno : ∀ ws xs, Literals ws xs → ¬ Erroneous ws) :
    ∃ cs, CallsOf l cs ∧ ms = cs.map (callPython sys) := by
  have hdets : ∀ ws xs ys, Literals ws xs → Literals ws ys → xs = ys := by
    intro ws xs ys h
    induction h generalizing ys with
    | nil => intro h; cases h; rfl
    | cons h1 _ ih => intro h; cases h with | cons h2 h3 => rw [hdet _ _ _ h1 h2, ih _ h3]
  induction hp with
  | nil => exact ⟨[], .nil, rfl⟩
  | @cons a m l ms h _ ih =>
    obtain ⟨cs, h1, h2⟩ := ih fun b hb => hl b (.tail _ hb)
    obtain ⟨f, ws, xs, hcall, hlit⟩ := hl a (.head _)
    refine ⟨(f, xs) :: cs, .cons hcall hlit h1, ?_⟩
    rw [List.map_cons, ← h2]
    congr 1
    cases h with
    | unset h hn =>
      obtain ⟨rfl, rfl⟩ := calls_det hcall (.envvar h)
      rw [hdets _ _ _ hlit (.cons (op_literal (by decide)) (.cons hn .nil))]
      rfl
    | @envvar op n v x y h hn hv =>
      obtain ⟨rfl, rfl⟩ := calls_det hcall (.envvar h)
      have ho : Literal op op := by
        cases h with
        | two ho hu => exact op_literal ho
      rw [hdets _ _ _ hlit (.cons ho (.cons hn (.cons hv .nil)))]
      rfl
    | module h hx =>
      obtain ⟨rfl, rfl⟩ := calls_det hcall (.module h)
      rw [hdets _ _ _ hlit hx]
      rfl
    | incomplete h =>
      obtain ⟨_, _, _, d4, d5⟩ := @words_det a
      cases hcall with
      | envvar h' => exact (d4 _ h' h).elim
      | module h' => exact (d5 _ h' h).elim
    | erroneous h he =>
      obtain ⟨rfl, rfl⟩ := calls_det hcall h
      exact absurd he (hno _ _ hlit)

theorem runCalls_each (sys : Sys) (cs : List (Str × List Str)) (env : Environ) :
    runCalls sys cs env = runEach (cs.map (callPython sys)) env := by
  induction cs generalizing env with
  | nil => rfl
  | cons c cs ih =>
    unfold runCalls
    rw [List.map_cons]
    unfold runEach
    rw [M.bind_def]
    rcases hx : callPython sys c env with ⟨x | x | _, env'⟩
    · exact ih env'
    · rfl
    · rfl

/-- Running a script whose actions can all be read. -/
theorem runScript_legible (sys : Sys) {l : List Action} {ls : List Str} {ms : List (M Environ Int)}
    (hl : CommandLines py!"python" l ls) (hp : Performing sys l ms) (hc : ∀ a ∈ l, Legible a) (sheb : Bool) (env : Environ) :
    runScript sys (scriptText sys py!"python" false sheb (some ls)) env = runEach ms env := by
  obtain ⟨cs, h1, rfl⟩ := performing_calls hp hc literal_det literals_not_erroneous
  unfold runScript
  rw [readProgram_script sys sheb ls (readProgram_commands hl h1)]
  exact runCalls_each sys cs env

theorem runScript_illegible (sys : Sys) {l₁ l₂ : List Action} {a : Action} {ls : List Str}
    (hl : CommandLines py!"python" (l₁ ++ a :: l₂) ls) (h₁ : ∀ b ∈ l₁, Legible b) (ha : Illegible a) (sheb : Bool) (env : Environ) :
    runScript sys (scriptText sys py!"python" false sheb (some ls)) env = (.exc (.user py!"SyntaxError"), env) := by
  unfold runScript
  rw [readProgram_script sys sheb ls (readProgram_illegible hl rfl h₁ ha)]
  rfl

theorem clean_legible {a : Action} {x : Str} (hl : CommandLine py!"python" a x) (hc : Clean a) : Legible a := by
  cases hl with
  | pyEnvvar h => exact ⟨_, _, _, .envvar h, literals_of_readable (EnvvarWords.readable h hc)⟩
  | pyModule h => exact ⟨_, _, _, .module h, literals_of_readable (ModuleWords.readable h hc)⟩

theorem cleans_legible {l : List Action} {ls : List Str} (hl : CommandLines py!"python" l ls) (hc : ∀ a ∈ l, Clean a) :
    ∀ a ∈ l, Legible a := by
  induction hl with
  | nil => intro a ha; cases ha
  | cons h1 _ ih =>
    intro a ha
    rcases List.mem_cons.1 ha with rfl | ha
    · exact clean_legible h1 (hc _ (.head _))
    · exact ih (fun b hb => hc b (.tail _ hb)) a ha

theorem runScript_text (sys : Sys) {l : List Action} {ls : List Str} {ms : List (M Environ Int)}
    (hl : CommandLines py!"python" l ls) (hp : Program sys l ms) (hc : ∀ a ∈ l, Clean a) (sheb : Bool) (env : Environ) :
    runScript sys (scriptText sys py!"python" false sheb (some ls)) env = runEach ms env :=
  runScript_legible sys hl (performing_of_program hp hc) (cleans_legible hl hc) sheb env

/-- Steps that `apply` runs to the end have the same effect when their statuses are not looked at. -/
theorem runEach_of_runAll (E : Env Shared Actions) {ms : List (M Environ Int)} {acc r : Int} {env env' : Environ}
    {notes : List Notice} (h : runAll E ms acc env = (.ok r, env', notes)) : runEach ms env = (.ok (), env') := by
  induction ms generalizing acc env notes with
  | nil =>
    unfold runAll at h
    cases h
    rfl
  | cons m ms ih =>
    unfold runAll at h
    unfold runEach
    split at h
    · cases h
    · cases h
    · rename_i r' env'' hx
      split at h
      · exact ih h
      · split at h
        · cases h
        · dsimp only at h
          have h1 := congrArg Prod.fst h
          have h2 := congrArg (fun p => p.2.1) h
          dsimp only at h1 h2
          exact ih (notes := (runAll E ms (max acc r') env'').2.2) (by rw [← h1, ← h2])

/-- An action that lacks something ends `apply`. -/
theorem runAll_incomplete {sys : Sys} (E : Env Shared Actions) {l₁ l₂ : List Action} {a : Action}
    {ms : List (M Environ Int)} (hp : Program sys (l₁ ++ a :: l₂) ms) (ha : Incomplete a) {acc r : Int}
    {env env' : Environ} {notes : List Notice} (h : runAll E ms acc env = (.ok r, env', notes)) : False := by
  replace h := runEach_of_runAll E h
  induction l₁ generalizing ms env with
  | nil =>
    cases hp with
    | cons hd _ =>
      cases does_det hd (.incomplete ha)
      cases h
  | cons b l₁ ih =>
    cases hp with
    | cons hd hp =>
      unfold runEach at h
      split at h
      · cases h
      · cases h
      · exact ih hp h

/-- `m` leaves the environment and the files alone. -/
def Apart {α : Type} (m : M State α) : Prop := ∀ st, (m st).2.environ = st.environ ∧ (m st).2.files = st.files

theorem Apart.bind {α β : Type} {m : M State α} {f : α → M State β} (h : Apart m) (hf : ∀ a, Apart (f a)) :
    Apart (m >>= f) := by
  intro st
  have h1 := h st
  rw [M.bind_def]
  cases hm : m st with
  | mk o st' =>
    rw [hm] at h1
    cases o with
    | ok a => exact ⟨(hf a st').1.trans h1.1, (hf a st').2.trans h1.2⟩
    | exc e => exact h1
    | diverge => exact h1

/-- Making a script leaves the environment and the files alone. -/
theorem generate_keeps (sys : Sys) (E : Env Shared Actions) (n : Nat) (s : Str) (hdr body sheb : Bool) (interp : Str)
    (st : State) :
    (generateScript sys E n s hdr body sheb interp st).2.environ = st.environ ∧
      (generateScript sys E n s hdr body sheb interp st).2.files = st.files := by
  have obj : ∀ {α : Type} (m : M (Obj Shared Actions) α), Apart (onObj m) := fun m st => ⟨rfl, rfl⟩
  have act : Apart (actionsOf s) := by
    intro st
    unfold actionsOf
    rw [M.read_bind]
    cases Dict.get? st.obj.self s <;> exact ⟨rfl, rfl⟩
  have pure' : ∀ {α : Type} (a : α), Apart (pure a : M State α) := fun a st => ⟨rfl, rfl⟩
  refine (?_ : Apart (generateScript sys E n s hdr body sheb interp)) st
  unfold generateScript
  split
  · exact (obj _).bind fun _ => pure' _
  · dsimp only
    split
    · refine Apart.bind (fun st => ⟨rfl, rfl⟩) fun st => ?_
      split
      · exact (obj _).bind fun _ => act.bind fun _ => (obj _).bind fun _ => pure' _
      · exact act.bind fun _ => (obj _).bind fun _ => pure' _
    · exact pure' _

end CPE.SetEnv
