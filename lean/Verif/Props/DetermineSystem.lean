import Verif.Props.Keywords
import Verif.Props.Shlex
/-
C54: DetermineSystem.
-/
namespace CPE.Props
open CPE CPE.Spec CPE.SetEnv CPE.KW CPE.KW.Spec

section
variable {E : Env Unit Unit} {n : Nat} {H : Host}

theorem plain_iff (p : Str) : simplePattern p = true ↔ Plain p := by
  rw [simplePattern, List.all_eq_true]
  exact ⟨fun h c hc => by simpa [metaChars] using h c hc, fun h c hc => by simpa [metaChars] using h c hc⟩

theorem searchAnywhere_iff (p t : Str) : searchAnywhere p t = true ↔ ∃ a x b, t = a ++ x ++ b ∧ Fits p x := by
  have here : ∀ t : Str, (matchPrefix p t).isSome = true ↔ ∃ x b, t = x ++ b ∧ Fits p x := by
    intro t
    rw [Option.isSome_iff_exists]
    constructor
    · rintro ⟨r, hr⟩; obtain ⟨x, h1, h2⟩ := matchPrefix_iff.1 hr; exact ⟨x, r, h1, h2⟩
    · rintro ⟨x, b, h1, h2⟩; exact ⟨b, matchPrefix_iff.2 ⟨x, h1, h2⟩⟩
  induction t with
  | nil =>
    rw [searchAnywhere, here]
    constructor
    · rintro ⟨x, b, h1, h2⟩; exact ⟨[], x, b, h1, h2⟩
    · rintro ⟨a, x, b, h1, h2⟩
      have h1' := h1.symm
      simp only [List.append_eq_nil_iff] at h1'
      exact ⟨x, b, by rw [h1'.1.2, h1'.2]; rfl, h2⟩
  | cons c t ih =>
    rw [searchAnywhere, Bool.or_eq_true, here]
    refine (or_congr Iff.rfl ih).trans ?_
    constructor
    · rintro (⟨x, b, h1, h2⟩ | ⟨a, x, b, h1, h2⟩)
      · exact ⟨[], x, b, h1, h2⟩
      · exact ⟨c :: a, x, b, by rw [h1]; rfl, h2⟩
    · rintro ⟨a, x, b, h1, h2⟩
      cases a with
      | nil => exact .inl ⟨x, b, h1, h2⟩
      | cons a0 a =>
        simp only [List.cons_append, List.cons.injEq] at h1
        exact .inr ⟨a, x, b, h1.2, h2⟩

theorem cleanKey_pattern (k : Str) : PatternIn k (cleanKey k) := by
  refine ⟨k.dropWhile fun c => c != '#' && c != '^' && !isSpace c, List.takeWhile_append_dropWhile.symm, fun c hc => ?_, ?_⟩
  · have := mem_takeWhile hc
    rw [← Props.isSpace_iff]
    simpa [and_assoc] using this
  · cases hd : k.dropWhile fun c => c != '#' && c != '^' && !isSpace c with
    | nil => exact .inl rfl
    | cons c r =>
      have := dropWhile_head hd
      refine .inr ⟨c, r, rfl, ?_⟩
      simp at this
      by_cases h1 : c = '#'
      · exact .inl h1
      · by_cases h2 : c = '^'
        · exact .inr (.inl h2)
        · exact .inr (.inr ((Props.isSpace_iff c).1 (this h1 h2)))

theorem pattern_unique {k p p' : Str} (h : PatternIn k p) (h' : PatternIn k p') : p = p' := by
  obtain ⟨r, e, h1, h2⟩ := h
  obtain ⟨r', e', h1', h2'⟩ := h'
  rw [e] at e'
  clear e
  induction p generalizing p' with
  | nil =>
    cases p' with
    | nil => rfl
    | cons c p' =>
      exfalso
      rcases h2 with rfl | ⟨a, t, rfl, ha⟩
      · cases e'
      · simp only [List.nil_append, List.cons_append, List.cons.injEq] at e'
        have := h1' c (.head _)
        rw [← e'.1] at this
        rcases ha with ha | ha | ha
        · exact this.1 ha
        · exact this.2.1 ha
        · exact this.2.2 ha
  | cons c p ih =>
    cases p' with
    | nil =>
      exfalso
      rcases h2' with rfl | ⟨a, t, rfl, ha⟩
      · cases e'
      · simp only [List.nil_append, List.cons_append, List.cons.injEq] at e'
        have := h1 c (.head _)
        rw [e'.1] at this
        rcases ha with ha | ha | ha
        · exact this.1 ha
        · exact this.2.1 ha
        · exact this.2.2 ha
    | cons c' p' =>
      simp only [List.cons_append, List.cons.injEq] at e'
      rw [e'.1, ih (fun a ha => h1 a (.tail _ ha)) e'.2 (fun a ha => h1' a (.tail _ ha))]

theorem hostSearch_ok {p : Str} {b : Bool} (h : hostSearch H p = .ok b) : b = true ↔ FoundIn H p H.hostname := by
  unfold hostSearch at h
  by_cases hp : simplePattern p = true
  · rw [if_pos hp] at h; cases h
    rw [searchAnywhere_iff]
    have := (plain_iff p).1 hp
    exact ⟨fun h => .inl ⟨this, h⟩, fun h => h.elim (fun h => h.2) fun h => absurd this h.1⟩
  · rw [if_neg hp] at h
    have : ¬ Plain p := fun hx => hp ((plain_iff p).2 hx)
    constructor
    · rintro rfl; exact .inr ⟨this, h⟩
    · rintro (hx | hx)
      · exact absurd hx.1 this
      · rw [h] at hx; exact Except.ok.inj hx.2

theorem anyKey_ok {ks : List Str} {b : Bool} (h : anyKey H ks = .ok b) : b = true ↔ ∃ k ∈ ks, FoundIn H k H.hostname := by
  induction ks generalizing b with
  | nil => cases h; simp
  | cons k ks ih =>
    rw [anyKey] at h
    cases h1 : hostSearch H k with
    | error e => rw [h1] at h; cases h
    | ok b1 =>
      rw [h1] at h
      cases h2 : anyKey H ks with
      | exc e => rw [h2] at h; cases h
      | diverge => rw [h2] at h; cases h
      | ok b2 =>
        rw [h2] at h; cases h
        rw [Bool.or_eq_true, hostSearch_ok h1, ih h2]
        simp

theorem anyKey_total {ks : List Str} (hp : ∀ k ∈ ks, Plain k ∨ ∃ b, H.rx k H.hostname = .ok b) : ∃ b, anyKey H ks = .ok b := by
  induction ks with
  | nil => exact ⟨_, rfl⟩
  | cons k ks ih =>
    obtain ⟨b2, h2⟩ := ih fun a ha => hp a (.tail _ ha)
    have : ∃ b, hostSearch H k = .ok b := by
      unfold hostSearch
      by_cases hs : simplePattern k = true
      · rw [if_pos hs]; exact ⟨_, rfl⟩
      · rw [if_neg hs]
        rcases hp k (.head _) with h | h
        · exact absurd ((plain_iff k).2 h) hs
        · exact h
    obtain ⟨b1, h1⟩ := this
    rw [anyKey, h1, h2]
    exact ⟨_, rfl⟩

/-- A read of a section that was not damaged. -/
theorem read_settled {s : Str} {o o1 : CObj} {d : Options} (ho : Settled E s o) (hs : E.cfg.hasSection s = true)
    (h : edGetItem E n s o = (.ok d, o1)) : Resolved E s d := by
  have hx : (EdOp.exec E n (.getItem s) o).1 = .ok (.opts d) := by
    show ((edGetItem E n s >>= fun d => pure (EdVal.opts d)) o).1 = _
    rw [M.bind_ok h]; rfl
  obtain ⟨d', h1, h2⟩ := settled_answer ho hs (.getItem s) rfl hx
  simp only [rightAnswer, Option.some.injEq, EdVal.opts.injEq] at h2
  rw [← h2]; exact h1

theorem settled_after_read {s t : Str} {o o1 : CObj} {d : Options} (ho : Settled E s o)
    (h : edGetItem E n t o = (.ok d, o1)) : Settled E s o1 := by
  have := KeepsSettled.edOptions (E := E) (s := s) (strict := true) n t (fun _ => rfl) o ho (fun _ => ⟨d, by
    change edOptions E n t o = _ at h; rw [h]⟩)
  change edOptions E n t o = _ at h
  rw [h] at this; exact this

theorem resolved_det {s : Str} {d d' : Options} (h : Resolved E s d) (h' : Resolved E s d') : d = d' := by
  obtain ⟨e, h1, h2⟩ := h
  obtain ⟨e', h1', h2'⟩ := h'
  cases parseTrace_det h1 h1'
  rw [lastWins_iff] at h2 h2'
  rw [h2, h2']

theorem hostIs_iff {s : Str} {d : Options} (hd : Resolved E s d) {b : Bool} (h : anyKey H ((Dict.keys d).map cleanKey) = .ok b) :
    b = true ↔ HostIs E H s := by
  rw [anyKey_ok h]
  constructor
  · rintro ⟨p, hp, hf⟩
    obtain ⟨k, hk, rfl⟩ := List.mem_map.1 hp
    exact ⟨d, k, _, hd, hk, cleanKey_pattern k, hf⟩
  · rintro ⟨d', k, p, hd', hk, hp, hf⟩
    rw [resolved_det hd' hd] at hk
    rw [pattern_unique hp (cleanKey_pattern k)] at hf
    exact ⟨_, List.mem_map.2 ⟨k, hk, rfl⟩, hf⟩

/-- The search for the host: the first system whose section has a pattern that is found in the host name. -/
theorem hostLoop_ok (l : List Str) (hl : ∀ s ∈ l, E.cfg.hasSection s = true) (o : CObj) (ho : ∀ s ∈ l, Settled E s o)
    {r : Option Str} {o' : CObj} (h : hostLoop E n H l o = (.ok r, o')) : FirstOf (HostIs E H) l r := by
  induction l generalizing o with
  | nil => cases h; exact fun x hx => by cases hx
  | cons s l ih =>
    rw [hostLoop] at h
    cases hr : edGetItem E n s o with
    | mk q o1 =>
      cases q with
      | exc e => rw [M.bind_exc hr] at h; cases h
      | diverge => rw [M.bind_diverge hr] at h; cases h
      | ok d =>
        rw [M.bind_ok hr] at h
        have hd := read_settled (ho s (.head _)) (hl s (.head _)) hr
        cases ha : anyKey H ((Dict.keys d).map cleanKey) with
        | exc e => rw [ha] at h; cases h
        | diverge => rw [ha] at h; cases h
        | ok b =>
          rw [ha] at h
          have hi := hostIs_iff hd ha
          cases b with
          | true =>
            cases h
            exact ⟨[], l, rfl, hi.1 rfl, fun y hy => by cases hy⟩
          | false =>
            have hno : ¬ HostIs E H s := fun hx => by cases hi.2 hx
            have := ih (fun t ht => hl t (.tail _ ht)) o1 (fun t ht => settled_after_read (ho t (.tail _ ht)) hr) h
            cases r with
            | none =>
              intro x hx
              rcases List.mem_cons.1 hx with rfl | hx
              · exact hno
              · exact this x hx
            | some x =>
              obtain ⟨pre, post, e, h1, h2⟩ := this
              refine ⟨s :: pre, post, by rw [e]; rfl, h1, fun y hy => ?_⟩
              rcases List.mem_cons.1 hy with rfl | hy
              · exact hno
              · exact h2 y hy

theorem exec_getItem_state (t : Str) (o : CObj) : (EdOp.exec E n (.getItem t) o).2 = (edGetItem E n t o).2 := by
  show ((edGetItem E n t >>= fun r => pure (EdVal.opts r)) o).2 = _
  rw [M.bind_def]
  generalize edGetItem E n t o = z
  obtain ⟨x, o'⟩ := z
  cases x <;> rfl

/-- The sections can be read one after the other, and the patterns in them are plain or accepted regular expressions. -/
def Readable (E : Env Unit Unit) (n : Nat) (H : Host) (l : List Str) (o : CObj) : Prop :=
  ∀ pre s post, l = pre ++ s :: post → ∃ d, (edGetItem E n s (EdOp.run E n (pre.map .getItem) o)).1 = .ok d ∧
    ∀ k ∈ Dict.keys d, ∀ p, PatternIn k p → Plain p ∨ ∃ b, H.rx p H.hostname = .ok b

/-- The search fails only if a section cannot be read or a regular expression is rejected. -/
theorem hostLoop_total (l : List Str) (o : CObj) (hr : Readable E n H l o) :
    ∃ r o', hostLoop E n H l o = (.ok r, o') := by
  induction l generalizing o with
  | nil => exact ⟨_, _, rfl⟩
  | cons s l ih =>
    obtain ⟨d, h1, h2⟩ := hr [] s l rfl
    change (edGetItem E n s o).1 = _ at h1
    have h1' : edGetItem E n s o = (.ok d, (edGetItem E n s o).2) := by rw [← h1]
    obtain ⟨b, hb⟩ := anyKey_total (H := H) (ks := (Dict.keys d).map cleanKey) fun p hp => by
      obtain ⟨k, hk, rfl⟩ := List.mem_map.1 hp
      exact h2 k hk _ (cleanKey_pattern k)
    rw [hostLoop, M.bind_ok h1', hb]
    cases b with
    | true => exact ⟨_, _, rfl⟩
    | false =>
      refine ih _ fun pre t post e => ?_
      have := hr (s :: pre) t post (by rw [e]; rfl)
      rw [List.map_cons, EdOp.run, exec_getItem_state] at this
      exact this

theorem hostLoop_exc (l : List Str) (o : CObj) {e : PyExc} {o' : CObj} (h : hostLoop E n H l o = (.exc e, o')) :
    ∃ s ∈ l, (∃ o1 o2, edGetItem E n s o1 = (.exc e, o2)) ∨
      ∃ d o1 o2 k p, edGetItem E n s o1 = (.ok d, o2) ∧ k ∈ Dict.keys d ∧ PatternIn k p ∧ ¬ Plain p ∧ H.rx p H.hostname = .error e := by
  induction l generalizing o with
  | nil => cases h
  | cons s l ih =>
    rw [hostLoop] at h
    cases hr : edGetItem E n s o with
    | mk q o1 =>
      cases q with
      | exc x => rw [M.bind_exc hr] at h; cases h; exact ⟨s, .head _, .inl ⟨_, _, hr⟩⟩
      | diverge => rw [M.bind_diverge hr] at h; cases h
      | ok d =>
        rw [M.bind_ok hr] at h
        cases ha : anyKey H ((Dict.keys d).map cleanKey) with
        | exc x =>
          rw [ha] at h; cases h
          refine ⟨s, .head _, .inr ?_⟩
          have : ∀ ks : List Str, anyKey H ks = .exc e → ∃ p ∈ ks, ¬ Plain p ∧ H.rx p H.hostname = .error e := by
            intro ks
            induction ks with
            | nil => intro h; cases h
            | cons k ks ih =>
              intro h
              rw [anyKey] at h
              cases h1 : hostSearch H k with
              | error x =>
                rw [h1] at h; cases h
                unfold hostSearch at h1
                by_cases hp : simplePattern k = true
                · rw [if_pos hp] at h1; cases h1
                · rw [if_neg hp] at h1
                  exact ⟨k, .head _, fun hx => hp ((plain_iff k).2 hx), h1⟩
              | ok b =>
                rw [h1] at h
                cases h2 : anyKey H ks with
                | ok b => rw [h2] at h; cases h
                | diverge => rw [h2] at h; cases h
                | exc x =>
                  rw [h2] at h; cases h
                  obtain ⟨p, hp, h⟩ := ih h2
                  exact ⟨p, .tail _ hp, h⟩
          obtain ⟨p, hp, h1, h2⟩ := this _ ha
          obtain ⟨k, hk, rfl⟩ := List.mem_map.1 hp
          exact ⟨d, _, _, k, _, hr, hk, cleanKey_pattern k, h1, h2⟩
        | diverge => rw [ha] at h; cases h
        | ok b =>
          rw [ha] at h
          cases b with
          | true => cases h
          | false =>
            obtain ⟨t, ht, hx⟩ := ih o1 h
            exact ⟨t, .tail _ ht, hx⟩

/-- What the build name says. -/
theorem sysFromBuild_cases (hn : E.cfg.sectionNames.Nodup) (build : Str) :
    ((∃ s t, s ≠ t ∧ NamedIn E H build s ∧ NamedIn E H build t) ∧ sysFromBuild E H build = .exc .systemExit) ∨
    ((∀ s, ¬ NamedIn E H build s) ∧ sysFromBuild E H build = .ok none) ∨
    (∃ s, (∀ t, NamedIn E H build t ↔ t = s) ∧ sysFromBuild E H build = .ok (some s)) := by
  have hm : ∀ s, s ∈ ((sysNames E).filter fun s => (splitChar '_' (H.lower build)).contains s) ↔ NamedIn E H build s := by
    intro s
    rw [List.mem_filter, sysNames, List.mem_filter]
    simp [NamedIn, Systems, edKeys]
  have hnd : ((sysNames E).filter fun s => (splitChar '_' (H.lower build)).contains s).Nodup :=
    List.Pairwise.filter _ (List.Pairwise.filter _ hn)
  unfold sysFromBuild
  dsimp only
  generalize ((sysNames E).filter fun s => (splitChar '_' (H.lower build)).contains s) = F at hm hnd
  match F, hm, hnd with
  | [], hm, _ => exact .inr (.inl ⟨fun s hs => (by cases (hm s).2 hs), rfl⟩)
  | [s], hm, _ => exact .inr (.inr ⟨s, fun t => by rw [← hm]; simp, rfl⟩)
  | s :: t :: F, hm, hnd =>
    refine .inl ⟨⟨s, t, fun e => ?_, (hm s).1 (by simp), (hm t).1 (by simp)⟩, rfl⟩
    rw [List.nodup_cons] at hnd
    exact hnd.1 (by simp [e])

/-- `system_name` from the system of the host. -/
theorem system_from_host (hn : E.cfg.sectionNames.Nodup) (hs : ∀ s, Systems E s → E.cfg.hasSection s = true) (build : Str) (force : Bool)
    {host : Option Str} {o' : CObj} (h : hostLoop E n H (sysNames E) (Obj.fresh E ()) = (.ok host, o')) :
    FirstOf (HostIs E H) (systemList E) host ∧
    ((∃ s t, s ≠ t ∧ NamedIn E H build s ∧ NamedIn E H build t) →
      (DS.systemName E n H (DS.new E build force)).1 = .exc .systemExit) ∧
    ((∀ s, ¬ NamedIn E H build s) → (DS.systemName E n H (DS.new E build force)).1 =
      if host = none then .exc .systemExit else .ok host) ∧
    (∀ s, (∀ t, NamedIn E H build t ↔ t = s) → (DS.systemName E n H (DS.new E build force)).1 =
      if host = some s ∨ force = true then .ok (some s) else .exc .systemExit) := by
  have hin : ∀ s ∈ sysNames E, Systems E s := by
    intro s hs'; rw [sysNames, List.mem_filter] at hs'
    simpa [Systems, edKeys] using hs'
  refine ⟨hostLoop_ok _ (fun s hs' => hs s (hin s hs')) _ (fun s _ => settled_fresh E s ()) h, ?_⟩
  have e : DS.systemName E n H (DS.new E build force) = (
      let ds : DS := { (DS.new E build force) with obj := o', name := some host }
      match sysFromBuild E H ds.buildName with
      | .exc e => (.exc e, ds)
      | .diverge => (.diverge, ds)
      | .ok none => if host = none then (.exc .systemExit, ds) else (.ok host, ds)
      | .ok (some s) =>
        let ds := { ds with name := some (some s) }
        if host ≠ some s ∧ ds.force = false then (.exc .systemExit, ds) else (.ok (some s), ds)) := by
    unfold DS.systemName
    rw [show (DS.new E build force).name = none from rfl]
    dsimp only
    rw [show (DS.new E build force).obj = Obj.fresh E () from rfl, h]
    rfl
  rw [e]
  dsimp only
  rw [show (DS.new E build force).buildName = build from rfl, show (DS.new E build force).force = force from rfl]
  rcases sysFromBuild_cases (H := H) hn build with ⟨⟨s, t, h1, h2, h3⟩, hb⟩ | ⟨h1, hb⟩ | ⟨s, h1, hb⟩
  · rw [hb]
    refine ⟨fun _ => rfl, fun hx => absurd h2 (hx s), fun u hu => absurd ?_ h1⟩
    rw [(hu s).1 h2, (hu t).1 h3]
  · rw [hb]
    refine ⟨fun ⟨s, _, _, h2, _⟩ => absurd h2 (h1 s), fun _ => ?_, fun u hu => absurd ((hu u).2 rfl) (h1 u)⟩
    cases host <;> rfl
  · rw [hb]
    refine ⟨fun ⟨a, b, h2, h3, h4⟩ => absurd (((h1 a).1 h3).trans ((h1 b).1 h4).symm) h2, fun hx => absurd ((h1 s).2 rfl) (hx s), fun u hu => ?_⟩
    have : u = s := (h1 u).1 ((hu u).2 rfl)
    subst this
    dsimp only
    by_cases hh : host = some u
    · rw [if_neg (fun hx => hx.1 hh), if_pos (.inl hh)]
    · cases force with
      | false => rw [if_pos ⟨hh, rfl⟩, if_neg (fun hx => hx.elim hh (by simp))]
      | true => rw [if_neg (fun hx => by cases hx.2), if_pos (.inr rfl)]

/-- C54: `system_name` of a new DetermineSystem. The host name yields the first system of the file with a pattern
found in it, or none; then the build name decides:
two systems named in it: exit; none named: the system of the host, exit if there is none either; one named: that
system, but exit if it is not the one of the host, unless forced. -/
theorem C54_system (hn : E.cfg.sectionNames.Nodup) (hs : ∀ s, Systems E s → E.cfg.hasSection s = true)
    (hr : Readable E n H (systemList E) (Obj.fresh E ())) (build : Str) (force : Bool) :
    ∃ host, FirstOf (HostIs E H) (systemList E) host ∧
    ((∃ s t, s ≠ t ∧ NamedIn E H build s ∧ NamedIn E H build t) →
      (DS.systemName E n H (DS.new E build force)).1 = .exc .systemExit) ∧
    ((∀ s, ¬ NamedIn E H build s) → (DS.systemName E n H (DS.new E build force)).1 =
      if host = none then .exc .systemExit else .ok host) ∧
    (∀ s, (∀ t, NamedIn E H build t ↔ t = s) → (DS.systemName E n H (DS.new E build force)).1 =
      if host = some s ∨ force = true then .ok (some s) else .exc .systemExit) := by
  obtain ⟨host, o', h⟩ := hostLoop_total _ _ hr
  exact ⟨host, system_from_host hn hs build force h⟩

/-- C54: the system of the host is determined. -/
theorem C54_host_unique {P : Str → Prop} {l : List Str} {r r' : Option Str} (h : FirstOf P l r) (h' : FirstOf P l r') : r = r' := by
  cases r with
  | none =>
    cases r' with
    | none => rfl
    | some x => obtain ⟨pre, post, e, hx, _⟩ := h'; exact absurd hx (h x (by rw [e]; simp))
  | some x =>
    obtain ⟨pre, post, e, hx, hp⟩ := h
    cases r' with
    | none => exact absurd hx (h' x (by rw [e]; simp))
    | some y =>
      obtain ⟨pre', post', e', hy, hp'⟩ := h'
      rw [e] at e'
      clear e
      induction pre generalizing pre' with
      | nil =>
        cases pre' with
        | nil => simp only [List.nil_append, List.cons.injEq] at e'; rw [e'.1]
        | cons a pre' =>
          simp only [List.nil_append, List.cons_append, List.cons.injEq] at e'
          exact absurd (e'.1 ▸ hx) (hp' a (.head _))
      | cons a pre ih =>
        cases pre' with
        | nil =>
          simp only [List.nil_append, List.cons_append, List.cons.injEq] at e'
          exact absurd (e'.1 ▸ hy) (hp a (.head _))
        | cons b pre' =>
          simp only [List.cons_append, List.cons.injEq] at e'
          exact ih (fun z hz => hp z (.tail _ hz)) pre' e'.2 (fun z hz => hp' z (.tail _ hz))

/-- C54: any other exception of `system_name` comes from a section that cannot be read or a pattern that the regular
expression engine rejects. -/
theorem C54_failures (build : Str) (force : Bool) {e : PyExc}
    (h : (DS.systemName E n H (DS.new E build force)).1 = .exc e) (he : e ≠ .systemExit) :
    ∃ s, Systems E s ∧ ((∃ o1 o2, edGetItem E n s o1 = (.exc e, o2)) ∨
      ∃ d o1 o2 k p, edGetItem E n s o1 = (.ok d, o2) ∧ k ∈ Dict.keys d ∧ PatternIn k p ∧ ¬ Plain p ∧ H.rx p H.hostname = .error e) := by
  have hin : ∀ s ∈ sysNames E, Systems E s := by
    intro s hs'; rw [sysNames, List.mem_filter] at hs'
    simpa [Systems, edKeys] using hs'
  unfold DS.systemName at h
  rw [show (DS.new E build force).name = none from rfl] at h
  dsimp only at h
  rw [show (DS.new E build force).obj = Obj.fresh E () from rfl] at h
  cases hl : hostLoop E n H (sysNames E) (Obj.fresh E ()) with
  | mk q o' =>
    rw [hl] at h
    cases q with
    | exc x =>
      cases h
      obtain ⟨s, hs, hx⟩ := hostLoop_exc _ _ hl
      exact ⟨s, hin s hs, hx⟩
    | diverge => cases h
    | ok host =>
      exfalso
      unfold sysFromBuild at h
      dsimp only at h
      split at h
      · rename_i h0
        split at h0
        · cases h0
        · cases h0
        · cases h0; cases h; exact he rfl
      · cases h
      · split at h
        · cases h; exact he rfl
        · cases h
      · split at h
        · cases h; exact he rfl
        · cases h

/-- C54: once `system_name` has returned, it returns the same again. -/
theorem C54_computed_once {ds ds' : DS} {r : Option Str} (h : DS.systemName E n H ds = (.ok r, ds')) :
    DS.systemName E n H ds' = (.ok r, ds') := by
  have hname : ds'.name = some r := by
    unfold DS.systemName at h
    cases hn : ds.name with
    | some q => rw [hn] at h; cases h; exact hn
    | none =>
      rw [hn] at h
      dsimp only at h
      split at h
      · cases h
      · cases h
      · split at h
        · cases h
        · cases h
        · split at h
          · cases h
          · cases h; rfl
        · split at h
          · cases h
          · cases h; rfl
  unfold DS.systemName
  rw [hname]

/-- C54: when the systems disagree and nothing is forced, `system_name` exits once only: caught, the next read returns
the system of the build name as if it had been forced. -/
theorem C54_after_exit (hn : E.cfg.sectionNames.Nodup) (hs : ∀ s, Systems E s → E.cfg.hasSection s = true)
    (hr : Readable E n H (systemList E) (Obj.fresh E ())) {build s : Str} (hb : ∀ t, NamedIn E H build t ↔ t = s)
    (hh : ¬ FirstOf (HostIs E H) (systemList E) (some s)) :
    ∃ ds', DS.systemName E n H (DS.new E build false) = (.exc .systemExit, ds') ∧
      DS.systemName E n H ds' = (.ok (some s), ds') := by
  obtain ⟨host, o', h⟩ := hostLoop_total _ _ hr
  have hf := (system_from_host hn hs build false h).1
  have hne : host ≠ some s := fun e => hh (e ▸ hf)
  have hbs : sysFromBuild E H build = .ok (some s) := by
    rcases sysFromBuild_cases (H := H) hn build with ⟨⟨a, b, h1, h2, h3⟩, _⟩ | ⟨h1, _⟩ | ⟨a, h1, h2⟩
    · exact absurd (((hb a).1 h2).trans ((hb b).1 h3).symm) h1
    · exact absurd ((hb s).2 rfl) (h1 s)
    · rw [h2, (h1 s).1 ((hb s).2 rfl)]
  refine ⟨{ (DS.new E build false) with obj := o', name := some (some s) }, ?_, rfl⟩
  unfold DS.systemName
  rw [show (DS.new E build false).name = none from rfl]
  dsimp only
  rw [show (DS.new E build false).obj = Obj.fresh E () from rfl, show sysNames E = systemList E from rfl, h]
  dsimp only
  rw [show (DS.new E build false).buildName = build from rfl, hbs]
  dsimp only
  rw [if_pos ⟨hne, rfl⟩]

/-! An example. -/

/--
```
[machine-1]
login.*:
node-1  # compute nodes:
[machine-2]
node-2:
```
(the second key with a comment, the first with a metacharacter) -/
def systemsCfg : Cfg where
  sections := [(py!"machine-1", [(py!"login.*", some []), (py!"node-1  # compute nodes", some [])]), (py!"machine-2", [(py!"node-2", some [])])]

/-- A host on which "login.*" is not found. -/
def host1 : Host := { host0 with rx := fun _ _ => .ok false }

/-- The system for a build name. -/
def systemFor (build : Str) (force : Bool) : Out (Option Str) :=
  (DS.systemName (cls systemsCfg) 10 host1 (DS.new (cls systemsCfg) build force)).1

example : systemFor py!"gnu" false = .ok (some py!"machine-1") ∧ systemFor py!"machine-1_gnu" false = .ok (some py!"machine-1") ∧
    systemFor py!"machine-2_gnu" false = .exc .systemExit ∧ systemFor py!"machine-2_gnu" true = .ok (some py!"machine-2") ∧
    systemFor py!"machine-2_machine-1" true = .exc .systemExit := by decide +kernel

/-- The hypotheses of C54 hold. -/
example : (cls systemsCfg).cfg.sectionNames.Nodup ∧ (∀ s, Systems (cls systemsCfg) s → (cls systemsCfg).cfg.hasSection s = true) ∧
    Readable (cls systemsCfg) 10 host1 (systemList (cls systemsCfg)) (Obj.fresh (cls systemsCfg) ()) := by
  refine ⟨by decide +kernel, fun s hs => ?_, fun pre s post e => ?_⟩
  · have : s ∈ [py!"machine-1", py!"machine-2"] := hs.1
    rcases List.mem_cons.1 this with rfl | this
    · rfl
    · rcases List.mem_cons.1 this with rfl | this
      · rfl
      · cases this
  · change [py!"machine-1", py!"machine-2"] = pre ++ s :: post at e
    match pre, e with
    | [], e => cases e; exact ⟨_, rfl, fun k _ p _ => (Classical.em (Plain p)).imp id fun _ => ⟨false, rfl⟩⟩
    | [a], e => cases e; exact ⟨_, rfl, fun k _ p _ => (Classical.em (Plain p)).imp id fun _ => ⟨false, rfl⟩⟩
    | a :: b :: c, e => simp at e

end
end CPE.Props
