import Verif.Proofs.Two
/-
A parse only looks at the sections it can reach.
-/
namespace CPE
open Spec
variable {δ ω : Type}

/-- The same class with another file. -/
def Env.withCfg (E : Env δ ω) (c : Cfg) : Env δ ω := { E with cfg := c }

section
variable {E : Env δ ω} {c' : Cfg} {X : Str → Prop}

theorem forEach_congr {W ι : Type} {xs : List ι} {f f' : ι → M W Unit} (h : ∀ x ∈ xs, f x = f' x) :
    M.forEach xs f = M.forEach xs f' := by
  induction xs with
  | nil => rfl
  | cons x xs ih =>
    rw [M.forEach_cons, M.forEach_cons, h x List.mem_cons_self, ih fun y hy => h y (List.mem_cons_of_mem _ hy)]

theorem locateHandler_eq (E : Env δ ω) (w : Str) :
    locateHandler E (opOfToken w) =
      (match publicHandler E (opName w), E.priv (opName w) with
       | none, none => pure none
       | none, some i => pure (some (py!"_handler_" ++ opName w, i))
       | some h, none => pure (some (py!"handler_" ++ opName w, .user h))
       | some h, some _ => ecEvent E .serious .ambiguousHandler >>= fun _ =>
          pure (some (py!"handler_" ++ opName w, .user h)) : M (World δ ω) (Option (Str × Impl δ ω))) := by
  unfold locateHandler
  dsimp only
  rw [opOfToken_eq, opOfToken_eq, opName_idem, publicMethod_eq]
  cases publicHandler E (opName w) <;> cases E.priv (opName w) <;> rfl

/-- An option that is a link is the call of `use`. -/
theorem meaning_use {E : Env δ ω} {root s k w t : Str} {v : Option Str} {qs : List Str}
    (hv : E.cfg.value s k = .ok v) (hs : shlexSplit (strip k) = .ok (w :: t :: qs)) (hw : OpWord w)
    (h1 : publicHandler E (opName w) = none) (h2 : E.priv (opName w) = some .use) :
    meaning E root s k = .link t := by
  unfold meaning
  rw [hv]
  dsimp only
  rw [hs]
  dsimp only
  rw [if_pos hw, h1, h2]

theorem processOption_agree {root s k : Str} {keys : List Str} {rec rec' : Str → M (World δ ω) Unit}
    (ho : E.cfg.optionNames s = some keys) (hk : k ∈ keys) (hv : c'.value s k = E.cfg.value s k)
    (hrec : ∀ t, Links E s t → rec t = rec' t) :
    processOption E rec root s k = processOption (E.withCfg c') rec' root s k := by
  unfold processOption
  change _ = (M.ofExcept (c'.value s k) >>= _)
  rw [hv]
  cases hvv : E.cfg.value s k with
  | error e => rfl
  | ok v =>
    rw [M.ofExcept_ok_bind, M.ofExcept_ok_bind]
    dsimp only
    have e1 : tokenizeOptionKey (strip k) = shlexSplit (strip k) := by
      unfold tokenizeOptionKey; rw [strip_idem]
    rw [e1]
    have e0 : ∀ l, logAdd (E.withCfg c') l = logAdd E l := fun _ => rfl
    rw [e0]
    congr 1
    funext _
    cases hs : shlexSplit (strip k) with
    | error e => rfl
    | ok toks =>
      rw [M.ofExcept_ok_bind, M.ofExcept_ok_bind]
      cases toks with
      | nil => rfl
      | cons w ps =>
        dsimp only
        cases hw : matchesOp w with
        | false => rfl
        | true =>
          have hw' := (opWord_iff_matches w).mpr hw
          rw [if_neg (by decide), if_neg (by decide), e0]
          congr 1
          funext _
          have e2 : locateHandler (E.withCfg c') (opOfToken w) = locateHandler E (opOfToken w) := rfl
          rw [e2, locateHandler_eq]
          cases h1 : publicHandler E (opName w) with
          | some h =>
            cases h2 : E.priv (opName w) with
            | none => rfl
            | some i => dsimp only; rw [M.bind_assoc, M.bind_assoc]; rfl
          | none =>
            cases h2 : E.priv (opName w) with
            | none => rfl
            | some i =>
              cases i with
              | user h => rfl
              | use =>
                change callImpl E rec .use _ = callImpl (E.withCfg c') rec' .use _
                unfold callImpl useBody
                dsimp only
                cases ps with
                | nil => rfl
                | cons t qs =>
                  have hl : Links E s t := links_of_meaning ho hk (meaning_use (root := s) hvv hs hw' h1 h2)
                  dsimp only
                  rw [hrec t hl]
                  rfl

theorem parseMain_agree {root s : Str} {fin : Bool} {rec rec' : Str → M (World δ ω) Unit}
    (ho : c'.optionNames s = E.cfg.optionNames s)
    (hv : ∀ keys, E.cfg.optionNames s = some keys → ∀ k ∈ keys, c'.value s k = E.cfg.value s k)
    (hrec : ∀ t, Links E s t → rec t = rec' t) :
    parseMain E rec root s fin = parseMain (E.withCfg c') rec' root s fin := by
  unfold parseMain
  change _ = (logAdd E (.sectionEntry s) >>= fun _ => match c'.optionNames s with | none => _ | some names => _)
  rw [ho]
  congr 1
  funext _
  cases hk : E.cfg.optionNames s with
  | none => rfl
  | some keys =>
    dsimp only
    rw [forEach_congr (f' := processOption (E.withCfg c') rec' root s) fun k hm =>
      processOption_agree hk hm (hv keys hk k hm) hrec]
    rfl

theorem parseR_agree (hX : ∀ s t, X s → Links E s t → X t)
    (ho : ∀ s, X s → c'.optionNames s = E.cfg.optionNames s)
    (hv : ∀ s keys, X s → E.cfg.optionNames s = some keys → ∀ k ∈ keys, c'.value s k = E.cfg.value s k)
    (hd : c'.hasSection E.defaultName = E.cfg.hasSection E.defaultName)
    (hdX : E.cfg.hasSection E.defaultName = true → X E.defaultName)
    (n : Nat) (root s : Str) (hs : X s) (init fin : Bool) :
    parseR E n root s init fin = parseR (E.withCfg c') n root s init fin := by
  induction n generalizing s init fin with
  | zero => rfl
  | succ n ih =>
    rw [parseR, parseR]
    have hm := parseMain_agree (root := root) (fin := fin) (ho s hs) (fun keys h => hv s keys hs h)
      (rec := fun t => parseR E n root t true false) (rec' := fun t => parseR (E.withCfg c') n root t true false)
      (fun t hl => ih t (hX s t hs hl) true false)
    rw [hm]
    change _ = (if init && s = root then (callHandler E E.hookInit _ >>= fun _ =>
        if c'.hasSection E.defaultName = true then _ else _) else _)
    rw [hd]
    split
    · congr 1
      funext _
      split
      · rename_i h
        rw [ih _ (hdX h)]
        rfl
      · rfl
    · rfl

theorem parseSection_agree {s : Str} {init : Bool}
    (ho : ∀ t, Reaches E s t ∨ (E.cfg.hasSection E.defaultName = true ∧ Reaches E E.defaultName t) →
      c'.optionNames t = E.cfg.optionNames t ∧
      ∀ keys, E.cfg.optionNames t = some keys → ∀ k ∈ keys, c'.value t k = E.cfg.value t k)
    (hd : c'.hasSection E.defaultName = E.cfg.hasSection E.defaultName) (n : Nat) (fin : Bool) :
    parseSection E n s init fin = parseSection (E.withCfg c') n s init fin := by
  have h : parseR E n s s init fin = parseR (E.withCfg c') n s s init fin := by
    refine parseR_agree (X := fun t => Reaches E s t ∨ (E.cfg.hasSection E.defaultName = true ∧ Reaches E E.defaultName t))
      ?_ (fun t ht => (ho t ht).1) (fun t keys ht h => (ho t ht).2 keys h) hd
      (fun h => .inr ⟨h, .refl _⟩) n s s (.inl (.refl _)) init fin
    rintro a b (h | ⟨h, h'⟩) hl
    · exact .inl (h.tail hl)
    · exact .inr ⟨h, h'.tail hl⟩
  unfold parseSection parseRoot
  rw [h]
  rfl

end
end CPE
