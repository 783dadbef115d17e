import Verif.Base
/-
Lemmas about the base layer.
-/
namespace CPE

deriving instance DecidableEq for Except

/-! ### strip -/

theorem dropWhile_head {p : Char → Bool} {s : Str} {c : Char} {t : Str}
    (h : s.dropWhile p = c :: t) : p c = false := by
  induction s with
  | nil => simp at h
  | cons a s ih =>
    rw [List.dropWhile_cons] at h
    split at h
    · exact ih h
    · next hp => cases h; simpa using hp

theorem dropWhile_eq_self_of_head {p : Char → Bool} {s : Str}
    (h : ∀ c, s.head? = some c → p c = false) : s.dropWhile p = s := by
  cases s with
  | nil => rfl
  | cons a s => rw [List.dropWhile_cons, if_neg]; simp [h a rfl]

/-- The result of `lstrip` is a suffix: what is removed is made of `p` characters. -/
theorem lstripBy_split (p : Char → Bool) (s : Str) :
    ∃ a, s = a ++ lstripBy p s ∧ ∀ c ∈ a, p c = true :=
  ⟨s.takeWhile p, by simp [lstripBy], fun c hc => by
    have := List.all_takeWhile (p := p) (l := s)
    rw [List.all_eq_true] at this; exact this c hc⟩

theorem rstripBy_split (p : Char → Bool) (s : Str) :
    ∃ b, s = rstripBy p s ++ b ∧ ∀ c ∈ b, p c = true := by
  obtain ⟨a, h1, h2⟩ := lstripBy_split p s.reverse
  refine ⟨a.reverse, ?_, by simpa using h2⟩
  have := congrArg List.reverse h1
  simpa [rstripBy, lstripBy] using this

theorem rstripBy_last {p : Char → Bool} {s : Str} {c : Char}
    (h : (rstripBy p s).getLast? = some c) : p c = false := by
  unfold rstripBy at h
  rw [List.getLast?_reverse] at h
  cases hd : s.reverse.dropWhile p with
  | nil => rw [hd] at h; simp at h
  | cons a t => rw [hd] at h; simp at h; subst h; exact dropWhile_head hd

theorem rstripBy_head {p : Char → Bool} {s : Str} {c : Char}
    (h : (rstripBy p s).head? = some c) : s.head? = some c := by
  obtain ⟨b, hb, _⟩ := rstripBy_split p s
  rw [hb, List.head?_append, h]; rfl

theorem stripBy_head {p : Char → Bool} {s : Str} {c : Char}
    (h : (stripBy p s).head? = some c) : p c = false := by
  have := rstripBy_head h
  unfold lstripBy at this
  cases hd : s.dropWhile p with
  | nil => rw [hd] at this; simp at this
  | cons a t => rw [hd] at this; simp at this; subst this; exact dropWhile_head hd

theorem stripBy_last {p : Char → Bool} {s : Str} {c : Char}
    (h : (stripBy p s).getLast? = some c) : p c = false := rstripBy_last h

theorem rstripBy_eq_self {p : Char → Bool} {s : Str}
    (h : ∀ c, s.getLast? = some c → p c = false) : rstripBy p s = s := by
  unfold rstripBy
  rw [dropWhile_eq_self_of_head]
  · simp
  · intro c hc; rw [List.head?_reverse] at hc; exact h c hc

theorem stripBy_eq_self {p : Char → Bool} {s : Str}
    (h1 : ∀ c, s.head? = some c → p c = false) (h2 : ∀ c, s.getLast? = some c → p c = false) :
    stripBy p s = s := by
  unfold stripBy lstripBy
  rw [dropWhile_eq_self_of_head h1, rstripBy_eq_self h2]

theorem stripBy_idem (p : Char → Bool) (s : Str) : stripBy p (stripBy p s) = stripBy p s :=
  stripBy_eq_self (fun _ h => stripBy_head h) (fun _ h => stripBy_last h)

theorem strip_idem (s : Str) : strip (strip s) = strip s := stripBy_idem _ _

theorem stripBy_split (p : Char → Bool) (s : Str) :
    ∃ a b, s = a ++ stripBy p s ++ b ∧ (∀ c ∈ a, p c = true) ∧ (∀ c ∈ b, p c = true) := by
  obtain ⟨a, h1, h2⟩ := lstripBy_split p s
  obtain ⟨b, h3, h4⟩ := rstripBy_split p (lstripBy p s)
  refine ⟨a, b, ?_, h2, h4⟩
  unfold stripBy
  rw [List.append_assoc, ← h3, ← h1]

theorem mem_stripBy {p : Char → Bool} {s : Str} {c : Char} (h : c ∈ s) (hc : p c = false) : c ∈ stripBy p s := by
  obtain ⟨a, b, h1, h2, h3⟩ := stripBy_split p s
  rw [h1] at h
  simp only [List.mem_append] at h
  rcases h with (h | h) | h
  · rw [h2 c h] at hc; cases hc
  · exact h
  · rw [h3 c h] at hc; cases hc

/-- `strip` is determined by its description: remove maximal blank ends. -/
theorem stripBy_unique {p : Char → Bool} {s a t b : Str} (h : s = a ++ t ++ b)
    (ha : ∀ c ∈ a, p c = true) (hb : ∀ c ∈ b, p c = true)
    (ht1 : ∀ c, t.head? = some c → p c = false) (ht2 : ∀ c, t.getLast? = some c → p c = false) :
    stripBy p s = t := by
  cases t with
  | nil =>
    have hall : ∀ c ∈ s, p c = true := by
      intro c hc; rw [h] at hc; simp at hc; rcases hc with hc | hc
      · exact ha c hc
      · exact hb c hc
    have : s.dropWhile p = [] := by
      cases hd : s.dropWhile p with
      | nil => rfl
      | cons c u =>
        have h1 := dropWhile_head hd
        have h2 : c ∈ s := by
          have : c ∈ s.dropWhile p := by rw [hd]; simp
          exact (List.dropWhile_sublist p).subset this
        rw [hall c h2] at h1; cases h1
    simp [stripBy, lstripBy, rstripBy, this]
  | cons x u =>
    have hl : lstripBy p s = (x :: u) ++ b := by
      unfold lstripBy
      rw [h, List.append_assoc, List.dropWhile_append_of_pos ha]
      rw [dropWhile_eq_self_of_head]
      intro c hc; exact ht1 c (by simpa using hc)
    unfold stripBy
    rw [hl]
    unfold rstripBy
    rw [List.reverse_append, List.dropWhile_append_of_pos (by simpa using hb)]
    have := rstripBy_eq_self (p := p) (s := x :: u) ht2
    unfold rstripBy at this
    exact this

/-! ### Dict -/

namespace Dict
variable {κ ν : Type} [DecidableEq κ]

theorem get?_set_self (d : Dict κ ν) (k : κ) (v : ν) : get? (set d k v) k = some v := by
  induction d with
  | nil => simp [set, get?]
  | cons a d ih =>
    obtain ⟨k', v'⟩ := a
    simp only [set]
    split
    · simp [get?, *]
    · simp [get?, *]

theorem get?_set_ne (d : Dict κ ν) {k k' : κ} (v : ν) (h : k' ≠ k) :
    get? (set d k v) k' = get? d k' := by
  induction d with
  | nil => simp [set, get?, h.symm]
  | cons a d ih =>
    obtain ⟨k'', v'⟩ := a
    simp only [set]
    split
    · next h' => subst h'; simp [get?, h.symm]
    · simp [get?, ih]

theorem get?_set (d : Dict κ ν) (k k' : κ) (v : ν) :
    get? (set d k v) k' = if k' = k then some v else get? d k' := by
  split
  · next h => subst h; exact get?_set_self ..
  · next h => exact get?_set_ne _ _ h

theorem get?_isSome_iff (d : Dict κ ν) (k : κ) : (get? d k).isSome ↔ k ∈ keys d := by
  induction d with
  | nil => simp [get?, keys]
  | cons a d ih =>
    obtain ⟨k', v'⟩ := a
    simp only [get?, keys, List.map_cons, List.mem_cons]
    split
    · next h => simp [h]
    · next h => rw [ih]; simp [keys, Ne.symm h]

theorem get?_eq_none_iff (d : Dict κ ν) (k : κ) : get? d k = none ↔ k ∉ keys d := by
  rw [← get?_isSome_iff]; cases get? d k <;> simp

theorem mem_iff (d : Dict κ ν) (k : κ) : mem d k = true ↔ k ∈ keys d := get?_isSome_iff d k

theorem keys_set (d : Dict κ ν) (k : κ) (v : ν) :
    keys (set d k v) = if k ∈ keys d then keys d else keys d ++ [k] := by
  induction d with
  | nil => simp [set, keys]
  | cons a d ih =>
    obtain ⟨k', v'⟩ := a
    simp only [set]
    split
    · next h => subst h; simp [keys]
    · next h =>
      simp only [keys, List.map_cons, List.mem_cons] at ih ⊢
      rw [ih]
      have : k ≠ k' := Ne.symm h
      by_cases hk : k ∈ List.map Prod.fst d <;> simp [hk, this]

theorem mem_keys_set (d : Dict κ ν) (k k' : κ) (v : ν) :
    k' ∈ keys (set d k v) ↔ k' = k ∨ k' ∈ keys d := by
  rw [keys_set]; split
  · next h => constructor
              · exact .inr
              · rintro (rfl | h') <;> assumption
  · simp [or_comm]

theorem set_of_get?_none (d : Dict κ ν) (k : κ) (v : ν) (h : get? d k = none) :
    set d k v = d ++ [(k, v)] := by
  induction d with
  | nil => rfl
  | cons a d ih =>
    obtain ⟨k', v'⟩ := a
    simp only [get?] at h
    split at h
    · cases h
    · next hne => simp [set, hne, ih h]

theorem set_eq_self (d : Dict κ ν) (k : κ) (v : ν) (h : get? d k = some v) : set d k v = d := by
  induction d with
  | nil => cases h
  | cons a d ih =>
    obtain ⟨k', v'⟩ := a
    simp only [get?] at h
    simp only [set]
    split at h
    · next he => subst he; cases h; simp
    · next hne => simp [hne, ih h]

theorem set_set (d : Dict κ ν) (k : κ) (v v' : ν) : set (set d k v) k v' = set d k v' := by
  induction d with
  | nil => simp [set]
  | cons a d ih =>
    obtain ⟨k', w⟩ := a
    simp only [set]
    by_cases h : k' = k
    · simp [h, set]
    · simp [h, set, ih]

end Dict

/-! ### sets -/

theorem mem_setAdd {κ : Type} [DecidableEq κ] (s : List κ) (k x : κ) :
    x ∈ setAdd s k ↔ x = k ∨ x ∈ s := by
  unfold setAdd; split
  · next h => constructor
              · exact .inr
              · rintro (rfl | h') <;> assumption
  · simp

theorem mem_setDel {κ : Type} [DecidableEq κ] (s : List κ) (k x : κ) :
    x ∈ setDel s k ↔ x ∈ s ∧ x ≠ k := by
  simp [setDel]

/-! ### the monad -/

namespace M
variable {W α β : Type}

theorem bind_def (m : M W α) (f : α → M W β) (w : W) :
    (m >>= f) w = match m w with
      | (.ok a, w') => f a w'
      | (.exc e, w') => (.exc e, w')
      | (.diverge, w') => (.diverge, w') := rfl

theorem bind_ok {m : M W α} {f : α → M W β} {w w' : W} {a : α} (h : m w = (.ok a, w')) :
    (m >>= f) w = f a w' := by rw [bind_def, h]

theorem bind_exc {m : M W α} {f : α → M W β} {w w' : W} {e : PyExc} (h : m w = (.exc e, w')) :
    (m >>= f) w = (.exc e, w') := by rw [bind_def, h]

theorem bind_diverge {m : M W α} {f : α → M W β} {w w' : W} (h : m w = (.diverge, w')) :
    (m >>= f) w = (.diverge, w') := by rw [bind_def, h]

@[simp] theorem pure_apply (a : α) (w : W) : (pure a : M W α) w = (.ok a, w) := rfl

@[simp] theorem pure_bind (a : α) (f : α → M W β) : ((pure a : M W α) >>= f) = f a := rfl

theorem bind_assoc {γ : Type} (m : M W α) (f : α → M W β) (g : β → M W γ) :
    ((m >>= f) >>= g) = (m >>= fun a => f a >>= g) := by
  funext w
  simp only [bind_def]
  cases h : m w with
  | mk o w' => cases o <;> rfl

@[simp] theorem raise_bind (e : PyExc) (f : α → M W β) : ((M.raise e : M W α) >>= f) = M.raise e := rfl

@[simp] theorem read_apply (w : W) : (M.read : M W W) w = (.ok w, w) := rfl
@[simp] theorem modify_apply (f : W → W) (w : W) : (M.modify f : M W Unit) w = (.ok (), f w) := rfl
@[simp] theorem raise_apply (e : PyExc) (w : W) : (M.raise e : M W α) w = (.exc e, w) := rfl

theorem ofExcept_ok_bind (a : α) (f : α → M W β) : (M.ofExcept (.ok a) >>= f) = f a := rfl
theorem ofExcept_error_bind (e : PyExc) (f : α → M W β) :
    ((M.ofExcept (.error e) : M W α) >>= f) = M.raise e := rfl

theorem read_bind (f : W → M W β) (w : W) : (M.read >>= f) w = f w w := rfl
theorem modify_bind (g : W → W) (f : Unit → M W β) (w : W) : (M.modify g >>= f) w = f () (g w) := rfl

theorem forEach_nil {ι : Type} (body : ι → M W Unit) : M.forEach [] body = pure () := rfl
theorem forEach_cons {ι : Type} (x : ι) (xs : List ι) (body : ι → M W Unit) :
    M.forEach (x :: xs) body = (body x >>= fun _ => M.forEach xs body) := rfl

theorem forEach_append {ι : Type} (xs ys : List ι) (body : ι → M W Unit) :
    M.forEach (xs ++ ys) body = (M.forEach xs body >>= fun _ => M.forEach ys body) := by
  induction xs with
  | nil => rfl
  | cons x xs ih => rw [List.cons_append, forEach_cons, forEach_cons, ih, bind_assoc]

end M
end CPE
