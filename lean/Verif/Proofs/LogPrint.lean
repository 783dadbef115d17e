import Verif.Spec.LogPrint
import Verif.Proofs.Base
/-
Proofs about the printed log (C81).
-/
namespace CPE.LogPrint
open CPE CPE.LogPrint.Spec

variable {β : Type}

/-! ### What is printed -/

theorem shown_append (d : Nat) (a b : List Str) : shown d (a ++ b) = shown d a ++ shown d b := by
  unfold shown; split <;> simp

theorem say_apply (t : Str) (s : State β) : say t s = (.ok (), { s with out := s.out ++ shown s.debug [t] }) := by
  have hd : ∀ d : Nat, (DbgState.debugMessage 1 t py!"\n" true { level := some d }).1 =
      if d = 0 then none else some (py!"[D-1] " ++ t ++ py!"\n") := by
    intro d
    cases d with
    | zero => rfl
    | succ d =>
      have h : ((d + 1 : Nat) : Int) ≥ 1 := by omega
      simp only [DbgState.debugMessage, DbgState.getLevel, h, if_true]
      rfl
  simp only [say, M.modify, hd, shown]
  obtain ⟨d, l, o⟩ := s
  cases d <;> simp

/-- The code prints these lines and does nothing else. -/
def Puts (m : M (State β) Unit) (l : List Str) : Prop :=
  ∀ s, m s = (.ok (), { s with out := s.out ++ shown s.debug l })

theorem Puts.nothing : Puts (pure () : M (State β) Unit) [] := by
  intro s
  have : shown s.debug [] = [] := by unfold shown; split <;> rfl
  rw [this, List.append_nil]; rfl

theorem Puts.say (t : Str) : Puts (LogPrint.say t : M (State β) Unit) [t] := say_apply t

theorem Puts.seq {m m' : M (State β) Unit} {a b : List Str} (h : Puts m a) (h' : Puts m' b) :
    Puts (m >>= fun _ => m') (a ++ b) := by
  intro s
  show M.bind m (fun _ => m') s = _
  unfold M.bind
  rw [h s]
  show m' _ = _
  rw [h', shown_append, List.append_assoc]

theorem Puts.each {ι : Type} (f : ι → M (State β) Unit) (g : ι → List Str) :
    ∀ xs : List ι, (∀ x ∈ xs, Puts (f x) (g x)) → Puts (M.forEach xs f) (xs.map g).flatten
  | [], _ => Puts.nothing
  | x :: xs, h => by
    have h1 := Puts.seq (h x (by simp)) (Puts.each f g xs fun y hy => h y (by simp [hy]))
    rw [List.map_cons, List.flatten_cons]
    exact h1

/-! ### One entry -/

theorem str_text (P : Shower β) (v : Val β) : P.str v = text P v := by cases v <;> rfl

theorem get?_filter (e : Entry β) (hn : (e.map Prod.fst).Nodup) (k : Str) :
    e.filter (fun p => p.1 = k) = match Dict.get? e k with | none => [] | some v => [(k, v)] := by
  induction e with
  | nil => rfl
  | cons p e ih =>
    obtain ⟨k', v⟩ := p
    simp only [List.map_cons, List.nodup_cons] at hn
    by_cases h : k' = k
    · subst h
      have : e.filter (fun p => p.1 = k') = [] := by
        rw [List.filter_eq_nil_iff]
        intro p hp he
        exact hn.1 (List.mem_map.2 ⟨p, hp, by simpa using he⟩)
      simp [Dict.get?, this]
    · simp only [Dict.get?, h, if_false]
      rw [List.filter_cons_of_neg (by simpa using h)]
      exact ih hn.2

theorem flatten_filter {α γ : Type} (p : α → Bool) (f : α → γ) :
    ∀ l : List α, (l.map fun x => if p x = true then [] else [f x]).flatten = (l.filter fun x => !p x).map f
  | [] => rfl
  | x :: l => by
    have ih := flatten_filter p f l
    cases h : p x <;> simp [h, ih]

theorem printEntry_puts (P : Shower β) (w : Nat) (e : Entry β) (hn : (e.map Prod.fst).Nodup) :
    Puts (printEntry P w e) (block P w e) := by
  unfold printEntry block
  have hs : Puts (β := β) (M.forEach specialKeys fun k =>
      match Dict.get? e k with
      | none => pure ()
      | some v => LogPrint.say ((if k ≠ py!"type" then py!"--> " else py!"    ") ++ (ljust w k ++ py!" : " ++ P.str v ++ py!" ")))
      ((e.filter fun p => p.1 = py!"type").map (row P w py!"    " py!" ") ++
        (e.filter fun p => p.1 = py!"name").map (row P w py!"--> " py!" ")) := by
    have h1 := Puts.each (β := β) (fun k =>
      match Dict.get? e k with
      | none => pure ()
      | some v => LogPrint.say ((if k ≠ py!"type" then py!"--> " else py!"    ") ++ (ljust w k ++ py!" : " ++ P.str v ++ py!" ")))
      (fun k => (e.filter fun p => p.1 = k).map (row P w (if k ≠ py!"type" then py!"--> " else py!"    ") py!" "))
      specialKeys (by
        intro k _
        rw [get?_filter e hn k]
        cases Dict.get? e k with
        | none => exact Puts.nothing
        | some v =>
          have := Puts.say (β := β) ((if k ≠ py!"type" then py!"--> " else py!"    ") ++ (ljust w k ++ py!" : " ++ P.str v ++ py!" "))
          simpa [row, ljust, str_text, List.append_assoc] using this)
    have h2 : (specialKeys.map fun k =>
        (e.filter fun p => p.1 = k).map (row P w (if k ≠ py!"type" then py!"--> " else py!"    ") py!" ")).flatten =
        (e.filter fun p => p.1 = py!"type").map (row P w py!"    " py!" ") ++
        (e.filter fun p => p.1 = py!"name").map (row P w py!"--> " py!" ") := by
      have ht : (if py!"type" ≠ py!"type" then py!"--> " else py!"    ") = py!"    " := by decide
      have hm : (if py!"name" ≠ py!"type" then py!"--> " else py!"    ") = py!"--> " := by decide
      simp only [specialKeys, List.map_cons, List.map_nil, List.flatten_cons, List.flatten_nil, List.append_nil, ht, hm]
    rw [h2] at h1
    exact h1
  have ho : Puts (β := β) (M.forEach e fun p =>
      if p.1 ∈ specialKeys then pure () else LogPrint.say (py!"--> " ++ ljust w p.1 ++ py!" : " ++ P.str p.2))
      ((e.filter fun p => p.1 ≠ py!"type" ∧ p.1 ≠ py!"name").map (row P w py!"--> " [])) := by
    have h1 := Puts.each (β := β) (fun p : Str × Val β =>
      if p.1 ∈ specialKeys then pure () else LogPrint.say (py!"--> " ++ ljust w p.1 ++ py!" : " ++ P.str p.2))
      (fun p => if decide (p.1 ∈ specialKeys) = true then [] else [row P w py!"--> " [] p]) e (by
        intro p _
        by_cases h : p.1 ∈ specialKeys
        · simp only [h, if_true, decide_true]; exact Puts.nothing
        · simp only [h, if_false, decide_false]
          have := Puts.say (β := β) (py!"--> " ++ ljust w p.1 ++ py!" : " ++ P.str p.2)
          simpa [row, ljust, str_text, List.append_assoc] using this)
    rw [flatten_filter] at h1
    have h3 : (e.filter fun p => !decide (p.1 ∈ specialKeys)) = e.filter fun p => p.1 ≠ py!"type" ∧ p.1 ≠ py!"name" := by
      apply List.filter_congr
      intro p _
      simp [specialKeys]
    rw [h3] at h1
    exact h1
  have h := Puts.seq hs (Puts.seq ho (Puts.say (β := β) []))
  rw [List.append_assoc _ _ [[]]]
  exact h

/-! ### The width of the first column -/

theorem foldl_max (l : List Str) (m : Nat) :
    let r := l.foldl (fun m k => max m k.length) m
    m ≤ r ∧ (∀ k ∈ l, k.length ≤ r) ∧ (r = m ∨ ∃ k ∈ l, k.length = r) := by
  induction l generalizing m with
  | nil => exact ⟨Nat.le_refl _, by simp, .inl rfl⟩
  | cons k l ih =>
    obtain ⟨h1, h2, h3⟩ := ih (max m k.length)
    refine ⟨by simp only [List.foldl_cons]; omega, ?_, ?_⟩
    · intro x hx
      rcases List.mem_cons.1 hx with rfl | hx
      · simp only [List.foldl_cons]; omega
      · exact h2 x hx
    · simp only [List.foldl_cons]
      rcases h3 with h3 | ⟨x, hx, h3⟩
      · rw [h3]
        by_cases hm : k.length ≤ m
        · left; omega
        · right; exact ⟨k, by simp, by omega⟩
      · exact .inr ⟨x, by simp [hx], h3⟩

/-- What the log always is. -/
def Good (es : List (Entry β)) : Prop :=
  ∀ e ∈ es, (e.map Prod.fst).Nodup ∧ ∃ t, Dict.get? e py!"type" = some (.text t)

theorem measure_ok : ∀ (es : List (Entry β)) (m : Nat), Good es →
    ∃ r, measure es m = .ok r ∧ m ≤ r ∧ (∀ e ∈ es, ∀ p ∈ e, p.1.length ≤ r) ∧
      (r = m ∨ ∃ e ∈ es, ∃ p ∈ e, p.1.length = r)
  | [], m, _ => ⟨m, rfl, Nat.le_refl _, by simp, .inl rfl⟩
  | e :: es, m, h => by
    obtain ⟨_, t, ht⟩ := h e (by simp)
    obtain ⟨f1, f2, f3⟩ := foldl_max (Dict.keys e) m
    obtain ⟨r, h1, h2, h3, h4⟩ := measure_ok es ((Dict.keys e).foldl (fun m k => max m k.length) m) fun x hx => h x (by simp [hx])
    refine ⟨r, by simp only [measure, ht, h1], by omega, ?_, ?_⟩
    · intro x hx p hp
      rcases List.mem_cons.1 hx with rfl | hx
      · exact Nat.le_trans (f2 p.1 (List.mem_map.2 ⟨p, hp, rfl⟩)) h2
      · exact h3 x hx p hp
    · rcases h4 with h4 | ⟨x, hx, p, hp, h4⟩
      · rcases f3 with f3 | ⟨k, hk, f3⟩
        · left; omega
        · obtain ⟨p, hp, rfl⟩ := List.mem_map.1 hk
          exact .inr ⟨e, by simp, p, hp, by omega⟩
      · exact .inr ⟨x, by simp [hx], p, hp, h4⟩

theorem widest_det {es : List (Entry β)} {w w' : Nat} (h : Widest es w) (h' : Widest es w') : w = w' := by
  have : ∀ {a b : Nat}, Widest es a → Widest es b → a ≤ b := by
    intro a b ha hb
    rcases ha.2 with h | ⟨e, he, p, hp, h⟩
    · omega
    · rw [← h]; exact hb.1 e he p hp
  exact Nat.le_antisymm (this h h') (this h' h)

theorem measure_widest {es : List (Entry β)} (h : Good es) {w : Nat} (hw : Widest es w) : measure es 0 = .ok w := by
  obtain ⟨r, h1, _, h3, h4⟩ := measure_ok es 0 h
  rw [h1, widest_det hw ⟨h3, h4⟩]

/-! ### Printing the log -/

theorem print_pretty (P : Shower β) (s : State β) {es : List (Entry β)} (hl : s.log = some es) (hg : Good es) {w : Nat}
    (hw : Widest es w) : print P true s = (.ok (), { s with out := s.out ++ shown s.debug (page P w es) }) := by
  have hb := Puts.each (printEntry P w) (block P w) es fun e he => printEntry_puts P w e (hg e he).1
  simp only [print, if_true]
  show M.bind (say py!"Loginfo:") _ s = _
  unfold M.bind
  rw [say_apply]
  simp only [theLog, M.read, bind, M.bind, hl, pure, M.pure, measure_widest hg hw, M.ofExcept]
  rw [hb]
  simp only [page]
  rw [show (py!"Loginfo:" :: (es.map (block P w)).flatten) = [py!"Loginfo:"] ++ (es.map (block P w)).flatten from rfl,
    shown_append, List.append_assoc]

theorem print_missing (P : Shower β) (s : State β) (hl : s.log = none) :
    print P true s = (.exc .attributeError, { s with out := s.out ++ shown s.debug [py!"Loginfo:"] }) := by
  simp only [print, if_true]
  show M.bind (say py!"Loginfo:") _ s = _
  unfold M.bind
  rw [say_apply]
  simp only [theLog, M.read, bind, M.bind, hl, M.raise]

theorem print_whole (P : Shower β) (s : State β) :
    print P false s = match s.log with
      | none => (.exc .attributeError, s)
      | some es => (.ok (), { s with out := s.out ++ [P.whole es ++ py!"\n"] }) := by
  cases h : s.log <;>
    simp [print, theLog, M.read, bind, M.bind, h, M.raise, pure, M.pure, M.modify]

/-! ### Histories -/

theorem set_typed (t : Str) (e : Entry β) (hn : (e.map Prod.fst).Nodup) :
    Dict.set e py!"type" (.text t) = typed t e := by
  induction e with
  | nil => rfl
  | cons p e ih =>
    obtain ⟨k, v⟩ := p
    simp only [List.map_cons, List.nodup_cons] at hn
    by_cases h : k = py!"type"
    · subst h
      have hid : e.map (fun p => if p.1 = py!"type" then (p.1, Val.text t) else p) = e := by
        conv => rhs; rw [← List.map_id e]
        apply List.map_congr_left
        intro p hp
        rw [if_neg fun hk => hn.1 (List.mem_map.2 ⟨p, hp, hk⟩)]
        rfl
      rw [typed, if_pos ⟨(py!"type", v), by simp, rfl⟩, List.map_cons, hid]
      simp only [Dict.set, if_true]
    · have ih := ih hn.2
      simp only [Dict.set, h, if_false, ih]
      unfold typed
      by_cases he : ∃ p ∈ e, p.1 = py!"type"
      · have : ∃ p ∈ (k, v) :: e, p.1 = py!"type" := by obtain ⟨p, hp, h⟩ := he; exact ⟨p, by simp [hp], h⟩
        rw [if_pos he, if_pos this]
        simp [h]
      · have : ¬ ∃ p ∈ (k, v) :: e, p.1 = py!"type" := by
          rintro ⟨p, hp, hk⟩
          rcases List.mem_cons.1 hp with rfl | hp
          · exact h hk
          · exact he ⟨p, hp, hk⟩
        rw [if_neg he, if_neg this]
        rfl

theorem add_apply (t : Str) (x : Option (Entry β)) (s : State β) :
    add t x s =
      if s.debug = 0 then (.ok (), { s with log := some (s.log.getD []) })
      else match x with
        | none => (.exc .typeError, { s with log := some (s.log.getD []) })
        | some e => (.ok (), { s with log := some (s.log.getD [] ++ [Dict.set e py!"type" (.text t)]) }) := by
  obtain ⟨d, l, o⟩ := s
  cases d <;> cases x <;> rfl

theorem run_append (P : Shower β) (a b : List (Op β)) (s : State β) : run P (a ++ b) s = run P b (run P a s) := by
  simp [run, List.foldl_append]

/-- Printing leaves the level and the log alone. -/
theorem print_keeps (P : Shower β) (b : Bool) (s : State β) (hg : ∀ es, s.log = some es → Good es) :
    (print P b s).2.debug = s.debug ∧ (print P b s).2.log = s.log := by
  cases b with
  | false => rw [print_whole]; split <;> exact ⟨rfl, rfl⟩
  | true =>
    cases hl : s.log with
    | none => rw [print_missing P s hl]; exact ⟨rfl, hl⟩
    | some es =>
      obtain ⟨w, _, _, h3, h4⟩ := measure_ok es 0 (hg es hl)
      rw [print_pretty P s hl (hg es hl) ⟨h3, h4⟩]; exact ⟨rfl, hl⟩

theorem good_typed {t : Str} {e : Entry β} (hn : (e.map Prod.fst).Nodup) :
    ((typed t e).map Prod.fst).Nodup ∧ ∃ t', Dict.get? (typed t e) py!"type" = some (.text t') := by
  refine ⟨?_, t, by rw [← set_typed t e hn]; exact Dict.get?_set_self ..⟩
  unfold typed
  split
  · have : (e.map fun p => if p.1 = py!"type" then (p.1, Val.text t) else p).map Prod.fst = e.map Prod.fst := by
      rw [List.map_map]
      apply List.map_congr_left
      intro p _
      simp only [Function.comp]
      split <;> rfl
    rw [this]; exact hn
  · next h =>
    rw [List.map_append, List.nodup_append]
    refine ⟨hn, by simp, ?_⟩
    intro a ha b hb
    simp only [List.map_cons, List.map_nil, List.mem_singleton] at hb
    subst hb
    rintro rfl
    obtain ⟨p, hp, hk⟩ := List.mem_map.1 ha
    exact h ⟨p, hp, hk⟩

/-- The log that a history leaves when it starts with log `l` at level `d`. -/
def logAfter (d : Nat) (l : Option (List (Entry β))) : List (Op β) → Option (List (Entry β))
  | [] => l
  | .level k :: ops => logAfter k l ops
  | .reset :: ops => logAfter d none ops
  | .print _ :: ops => logAfter d l ops
  | .add t (some e) :: ops => logAfter d (some (l.getD [] ++ if d = 0 then [] else [typed t e])) ops
  | .add _ none :: ops => logAfter d (some (l.getD [])) ops

theorem run_log (P : Shower β) : ∀ (ops : List (Op β)) (s : State β), (∀ op ∈ ops, Fit op) →
    (∀ es, s.log = some es → Good es) →
    (run P ops s).debug = levelAfter s.debug ops ∧ (run P ops s).log = logAfter s.debug s.log ops ∧
      ∀ es, (run P ops s).log = some es → Good es
  | [], s, _, hg => ⟨rfl, rfl, hg⟩
  | op :: ops, s, hf, hg => by
    have hops : ∀ x ∈ ops, Fit x := fun x hx => hf x (by simp [hx])
    have hop := hf op (by simp)
    show (run P ops (op.exec P s).2).debug = _ ∧ (run P ops (op.exec P s).2).log = _ ∧
      ∀ es, (run P ops (op.exec P s).2).log = some es → Good es
    have key : ∀ s' : State β, (op.exec P s).2 = s' → (∀ es, s'.log = some es → Good es) →
        levelAfter s'.debug ops = levelAfter s.debug (op :: ops) → logAfter s'.debug s'.log ops = logAfter s.debug s.log (op :: ops) →
        (run P ops (op.exec P s).2).debug = levelAfter s.debug (op :: ops) ∧
          (run P ops (op.exec P s).2).log = logAfter s.debug s.log (op :: ops) ∧
          ∀ es, (run P ops (op.exec P s).2).log = some es → Good es := by
      intro s' h h1 h2 h3
      obtain ⟨a, b, c⟩ := run_log P ops s' hops h1
      rw [h]
      exact ⟨a.trans h2, b.trans h3, c⟩
    have hg0 : Good (s.log.getD []) := by
      cases h : s.log with
      | none => intro e he; simp at he
      | some es => exact hg es h
    cases op with
    | level k => exact key _ rfl hg rfl rfl
    | reset => exact key _ rfl (fun es h => by cases h) rfl rfl
    | print b =>
      obtain ⟨h1, h2⟩ := print_keeps P b s hg
      refine key (print P b s).2 rfl (fun es h => hg es (h2 ▸ h)) ?_ ?_
      · rw [h1]; rfl
      · rw [h1, h2]; rfl
    | add t x =>
      have ha := add_apply t x s
      by_cases hd : s.debug = 0
      · rw [if_pos hd] at ha
        refine key { s with log := some (s.log.getD []) } (by show (add t x s).2 = _; rw [ha]) ?_ ?_ ?_
        · intro es h; cases h; exact hg0
        · cases x <;> rfl
        · cases x <;> simp [logAfter, hd]
      · rw [if_neg hd] at ha
        cases x with
        | none =>
          exact key { s with log := some (s.log.getD []) } (by show (add t none s).2 = _; rw [ha])
            (fun es h => by cases h; exact hg0) rfl rfl
        | some e =>
          have he : (e.map Prod.fst).Nodup := hop
          simp only [set_typed t e he] at ha
          refine key { s with log := some (s.log.getD [] ++ [typed t e]) } (by show (add t (some e) s).2 = _; rw [ha]) ?_ rfl ?_
          · intro es h
            cases h
            intro x hx
            rcases List.mem_append.1 hx with hx | hx
            · exact hg0 x hx
            · rw [List.mem_singleton] at hx; subst hx; exact good_typed he
          · simp [logAfter, hd]

theorem recorded_none : ∀ (ops : List (Op β)) (d : Nat), (∀ op ∈ ops, ¬ Touches op) → recorded d ops = []
  | [], _, _ => rfl
  | o :: os, d, h => by
    have ih := fun d => recorded_none os d fun x hx => h x (by simp [hx])
    cases o with
    | add t x => exact absurd trivial (h (.add t x) (by simp))
    | reset => exact ih d
    | level k => exact ih k
    | print b => exact ih d

theorem logAfter_recorded : ∀ (ops : List (Op β)) (d : Nat) (l : Option (List (Entry β))), (∀ op ∈ ops, ¬ Forgets op) →
    ((∃ op ∈ ops, Touches op) → logAfter d l ops = some (l.getD [] ++ recorded d ops)) ∧
    ((∀ op ∈ ops, ¬ Touches op) → logAfter d l ops = l)
  | [], d, l, _ => ⟨by simp, fun _ => rfl⟩
  | op :: ops, d, l, hf => by
    have hf' : ∀ x ∈ ops, ¬ Forgets x := fun x hx => hf x (by simp [hx])
    have skip : ∀ d', (¬ Touches op) → logAfter d l (op :: ops) = logAfter d' l ops → recorded d (op :: ops) = recorded d' ops →
        ((∃ x ∈ op :: ops, Touches x) → logAfter d l (op :: ops) = some (l.getD [] ++ recorded d (op :: ops))) ∧
        ((∀ x ∈ op :: ops, ¬ Touches x) → logAfter d l (op :: ops) = l) := by
      intro d' hn h1 h2
      obtain ⟨a, b⟩ := logAfter_recorded ops d' l hf'
      rw [h1, h2]
      refine ⟨?_, fun h => b fun x hx => h x (by simp [hx])⟩
      rintro ⟨x, hx, ht⟩
      rcases List.mem_cons.1 hx with rfl | hx
      · exact absurd ht hn
      · exact a ⟨x, hx, ht⟩
    have took : ∀ new : List (Entry β), Touches op → logAfter d l (op :: ops) = logAfter d (some (l.getD [] ++ new)) ops →
        recorded d (op :: ops) = new ++ recorded d ops →
        ((∃ x ∈ op :: ops, Touches x) → logAfter d l (op :: ops) = some (l.getD [] ++ recorded d (op :: ops))) ∧
        ((∀ x ∈ op :: ops, ¬ Touches x) → logAfter d l (op :: ops) = l) := by
      intro new ht h1 h2
      obtain ⟨a, b⟩ := logAfter_recorded ops d (some (l.getD [] ++ new)) hf'
      refine ⟨fun _ => ?_, fun h => absurd ht (h op (by simp))⟩
      rw [h1, h2]
      by_cases hx : ∃ x ∈ ops, Touches x
      · rw [a hx]; simp
      · have hx' : ∀ x ∈ ops, ¬ Touches x := fun x hm ht => hx ⟨x, hm, ht⟩
        rw [b hx']
        have := recorded_none ops d hx'
        rw [this, List.append_nil]
    cases op with
    | level k => exact skip k id rfl rfl
    | reset => exact absurd trivial (hf .reset (by simp))
    | print b => exact skip d id rfl rfl
    | add t x =>
      cases x with
      | none => exact took [] trivial (by simp [logAfter]) rfl
      | some e =>
        by_cases hd : d = 0
        · exact took [] trivial (by simp [logAfter, hd]) (by simp [recorded, hd])
        · exact took [typed t e] trivial (by simp [logAfter, hd]) (by simp [recorded, hd])

/-! ### The log of a parse -/

theorem callOf_fit (i : Nat) (e : LogEntry) : Fit (callOf i e) := by
  cases e <;> simp [Fit, callOf]

theorem callsOf_fit : ∀ (l : List LogEntry) (i : Nat), ∀ op ∈ callsOf i l, Fit op ∧ ¬ Forgets op ∧ Touches op
  | [], _ => by simp [callsOf]
  | e :: l, i => by
    have one : ∀ j x, Fit (callOf j x) ∧ ¬ Forgets (callOf j x) ∧ Touches (callOf j x) := by
      intro j x
      refine ⟨callOf_fit j x, ?_⟩
      cases x <;> exact ⟨id, trivial⟩
    unfold callsOf
    split
    · next a b n k v l' heq =>
      intro op h
      rcases List.mem_cons.1 h with rfl | h
      · exact one i _
      · rcases List.mem_cons.1 h with rfl | h
        · exact ⟨by simp [Fit], id, trivial⟩
        · have : l'.length < (e :: l).length := by
            rw [heq]; simp only [List.length_cons]; omega
          exact callsOf_fit l' (i + 2) op h
    · next heq =>
      cases heq
      intro op h
      rcases List.mem_cons.1 h with rfl | h
      · exact one i _
      · exact callsOf_fit l (i + 1) op h
    · next heq => cases heq
termination_by l => l.length

theorem recorded_call (d i : Nat) (hd : d ≠ 0) (e : LogEntry) (ops : List (Op Logged)) :
    recorded d (callOf i e :: ops) = dict i false e :: recorded d ops := by
  cases e with
  | keyValue k v => cases v <;> simp [callOf, recorded, hd, typed, dict, optional]
  | _ => simp [callOf, recorded, hd, typed, dict]

theorem dict_flag (i : Nat) (c : Bool) (e : LogEntry) (h : ∀ n k v, e ≠ .handlerExit n k v) : dict i c e = dict i false e := by
  cases e with
  | handlerExit n k v => exact absurd rfl (h n k v)
  | keyValue k v => cases v <;> rfl
  | _ => rfl

theorem recorded_calls (d : Nat) (hd : d ≠ 0) : ∀ (l : List LogEntry) (i : Nat), recorded d (callsOf i l) = dicts i false l
  | [], _ => rfl
  | e :: l, i => by
    unfold callsOf
    split
    · next a b n k v l' heq =>
      have hlt : l'.length < (e :: l).length := by
        rw [heq]; simp only [List.length_cons]; omega
      rw [recorded_call d i hd, heq]
      simp only [dicts, isCycle]
      rw [← recorded_calls d hd l' (i + 2)]
      simp [recorded, hd, typed, dict]
    · next hne heq =>
      cases heq
      rw [recorded_call d i hd, recorded_calls d hd l (i + 1)]
      simp only [dicts]
      congr 1
      cases l with
      | nil => rfl
      | cons x l =>
        simp only [dicts]
        congr 1
        cases hc : isCycle e with
        | false => rfl
        | true =>
          refine (dict_flag (i + 1) true x ?_).symm
          rintro n k v rfl
          cases e with
          | cycleDetected a b => exact hne a b n k v l rfl rfl
          | _ => cases hc
    · next heq => cases heq
termination_by l => l.length

end CPE.LogPrint
