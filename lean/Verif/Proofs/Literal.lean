import Verif.Spec.Literal
/-
Lemmas on the reading of Python literals.
-/
namespace CPE.SetEnv
open CPE.Spec CPE.SetEnv.Spec

/-! ### Digits -/

theorem digitVal_of {c : Char} {d : Nat} (hd : d < 16)
    (h : (py!"0123456789abcdef")[d]? = some c ∨ (py!"0123456789ABCDEF")[d]? = some c) : digitVal c = d := by
  have : d = 0 ∨ d = 1 ∨ d = 2 ∨ d = 3 ∨ d = 4 ∨ d = 5 ∨ d = 6 ∨ d = 7 ∨ d = 8 ∨ d = 9 ∨ d = 10 ∨ d = 11 ∨ d = 12 ∨ d = 13 ∨
      d = 14 ∨ d = 15 := by omega
  rcases this with rfl | rfl | rfl | rfl | rfl | rfl | rfl | rfl | rfl | rfl | rfl | rfl | rfl | rfl | rfl | rfl <;>
    rcases h with h | h <;> cases h <;> decide

theorem digit_val {b : Nat} (hb : b ≤ 16) {c : Char} {d : Nat} (h : Digit b c d) : digitVal c = d :=
  digitVal_of (Nat.lt_of_lt_of_le h.1 hb) h.2

theorem char_range {c : Char} {lo hi : Char} (h : lo ≤ c ∧ c ≤ hi) : lo.toNat ≤ c.toNat ∧ c.toNat ≤ hi.toNat :=
  ⟨UInt32.le_iff_toNat_le.1 h.1, UInt32.le_iff_toNat_le.1 h.2⟩

theorem char_of_toNat {c d : Char} (h : c.toNat = d.toNat) : c = d := by
  apply Char.ext
  exact UInt32.toNat_inj.1 h

/-- A character whose value is below the base is a digit. -/
theorem digit_of {b : Nat} (hb : b ≤ 16) {c : Char} (h : digitVal c < b) : Digit b c (digitVal c) := by
  refine ⟨h, ?_⟩
  have pick : ∀ (l : Str) (k : Nat) (d : Char), l[k]? = some d → c.toNat = d.toNat → l[k]? = some c := by
    intro l k d h1 h2; rw [h1, char_of_toNat h2]
  unfold digitVal at h ⊢
  split
  · rename_i h1
    rw [if_pos h1] at h
    have h2 := char_range h1
    left
    have e0 : ('0' : Char).toNat = 48 := rfl
    have e9 : ('9' : Char).toNat = 57 := rfl
    rw [e0] at h2 ⊢
    rw [e9] at h2
    have : c.toNat = 48 ∨ c.toNat = 49 ∨ c.toNat = 50 ∨ c.toNat = 51 ∨ c.toNat = 52 ∨ c.toNat = 53 ∨ c.toNat = 54 ∨ c.toNat = 55 ∨
        c.toNat = 56 ∨ c.toNat = 57 := by omega
    rcases this with e | e | e | e | e | e | e | e | e | e <;> rw [e] <;> exact pick _ _ _ rfl e
  · rename_i h1
    rw [if_neg h1] at h
    split
    · rename_i h2
      rw [if_pos h2] at h
      have h3 := char_range h2
      left
      have e0 : ('a' : Char).toNat = 97 := rfl
      have e9 : ('f' : Char).toNat = 102 := rfl
      rw [e0] at h3 ⊢
      rw [e9] at h3
      have : c.toNat = 97 ∨ c.toNat = 98 ∨ c.toNat = 99 ∨ c.toNat = 100 ∨ c.toNat = 101 ∨ c.toNat = 102 := by omega
      rcases this with e | e | e | e | e | e <;> rw [e] <;> exact pick _ _ _ rfl e
    · rename_i h2
      rw [if_neg h2] at h
      split
      · rename_i h3
        rw [if_pos h3] at h
        have h4 := char_range h3
        right
        have e0 : ('A' : Char).toNat = 65 := rfl
        have e9 : ('F' : Char).toNat = 70 := rfl
        rw [e0] at h4 ⊢
        rw [e9] at h4
        have : c.toNat = 65 ∨ c.toNat = 66 ∨ c.toNat = 67 ∨ c.toNat = 68 ∨ c.toNat = 69 ∨ c.toNat = 70 := by omega
        rcases this with e | e | e | e | e | e <;> rw [e] <;> exact pick _ _ _ rfl e
      · rename_i h3
        rw [if_neg h3] at h
        omega

theorem number_val {b : Nat} (hb : b ≤ 16) {ds : Str} {n : Nat} (h : Number b ds n) :
    numeral b ds = n ∧ ∀ c ∈ ds, digitVal c < b := by
  induction h with
  | nil => exact ⟨rfl, fun _ h => by cases h⟩
  | @snoc ds n c d _ hd ih =>
    have hv := digit_val hb hd
    refine ⟨?_, ?_⟩
    · unfold numeral at ih ⊢
      rw [List.foldl_append, ih.1]
      show n * b + digitVal c = _
      rw [hv]
    · intro x hx
      rcases List.mem_append.1 hx with h | h
      · exact ih.2 x h
      · rw [List.mem_singleton.1 h, hv]; exact hd.1

theorem numeral_append (b : Nat) (ds : Str) (c : Char) : numeral b (ds ++ [c]) = numeral b ds * b + digitVal c := by
  unfold numeral; rw [List.foldl_append]; rfl

theorem snoc_cases {α : Type} (l : List α) : l = [] ∨ ∃ i x, l = i ++ [x] := by
  cases h : l.reverse with
  | nil => left; simpa using h
  | cons x i => right; exact ⟨i.reverse, x, by rw [← List.reverse_reverse l, h, List.reverse_cons]⟩

theorem number_of {b : Nat} (hb : b ≤ 16) : ∀ (k : Nat) (ds : Str), ds.length = k → (∀ c ∈ ds, digitVal c < b) → Number b ds (numeral b ds)
  | 0, ds, hk, _ => by
    have : ds = [] := List.eq_nil_of_length_eq_zero hk
    subst this
    exact .nil
  | k + 1, ds, hk, hd => by
    rcases snoc_cases ds with rfl | ⟨i, c, rfl⟩
    · cases hk
    · rw [numeral_append]
      refine .snoc (number_of hb k i (by simpa using hk) fun x hx => hd x (List.mem_append_left _ hx)) ?_
      exact digit_of hb (hd c (by simp))

theorem isOctal_iff (c : Char) : isOctal c = true ↔ ∃ d, Digit 8 c d := by
  unfold isOctal
  rw [decide_eq_true_iff]
  constructor
  · intro h; exact ⟨_, digit_of (by decide) h⟩
  · rintro ⟨d, hd⟩; rw [digit_val (by decide) hd]; exact hd.1

theorem octal_small {ds : Str} (hd : ∀ c ∈ ds, digitVal c < 8) (hl : ds.length ≤ 3) : numeral 8 ds < 512 := by
  rcases ds with _ | ⟨a, _ | ⟨b, _ | ⟨c, _ | ⟨d, ds⟩⟩⟩⟩
  · decide
  · have := hd a (by simp); simp only [numeral, List.foldl]; omega
  · have := hd a (by simp); have := hd b (by simp); simp only [numeral, List.foldl]; omega
  · have := hd a (by simp); have := hd b (by simp); have := hd c (by simp); simp only [numeral, List.foldl]; omega
  · simp only [List.length_cons] at hl; omega

/-! ### One piece -/

theorem readArgs_skip (p : Str) (done : List Str) (cur rest : Str) :
    readArgs (.lit p.length done cur) (p ++ rest) = readArgs (.lit 0 done cur) rest := by
  induction p with
  | nil => rfl
  | cons c p ih =>
    rw [List.cons_append]
    show readArgs (.lit (p.length + 1) done cur) _ = _
    rw [readArgs, ih]

theorem readArgs_char {c : Char} (hc : c ∉ py!"\"\\\n\r\u0000") (done : List Str) (cur rest : Str) :
    readArgs (.lit 0 done cur) (c :: rest) = readArgs (.lit 0 done (cur ++ [c])) rest := by
  simp only [List.mem_cons, List.not_mem_nil, or_false, not_or] at hc
  obtain ⟨h1, h2, h3, h4, h5⟩ := hc
  rw [readArgs, if_neg h1, if_neg (by rintro (h | h); exact h3 h; exact h4 h), if_neg h5, if_neg h2]

theorem readArgs_escape {q x rest : Str} (h : escape (q ++ rest) = .ok (x, q.length)) (done : List Str) (cur : Str) :
    readArgs (.lit 0 done cur) ('\\' :: (q ++ rest)) = readArgs (.lit 0 done (cur ++ x)) rest := by
  rw [readArgs, if_neg (by decide), if_neg (by decide), if_neg (by decide), if_pos rfl, h]
  dsimp only
  exact readArgs_skip q done _ rest

/-- What follows a text inside the quotes begins like it. -/
theorem head_quote (t rest : Str) : (t = [] ∧ (t ++ '"' :: rest).head? = some '"') ∨ (t ++ '"' :: rest).head? = t.head? := by
  cases t with
  | nil => left; exact ⟨rfl, rfl⟩
  | cons c t => right; rfl

theorem hexEscape_ok {c : Char} {k : Nat} (hck : (c, k) ∈ hexEscapes) {ds rest : Str} {n : Nat} (hn : Number 16 ds n) (hk : ds.length = k)
    (hv : n.isValidChar) : escape (c :: (ds ++ rest)) = .ok ([Char.ofNat n], (c :: ds).length) := by
  obtain ⟨h1, h2⟩ := number_val (by decide) hn
  have hall : ds.all isHex = true := by
    rw [List.all_eq_true]; intro x hx; unfold isHex; exact decide_eq_true (h2 x hx)
  have hlt : ¬ (0x10FFFF < n) := by unfold Nat.isValidChar at hv; omega
  have key : hexEscape k (ds ++ rest) = .ok ([Char.ofNat n], k + 1) := by
    unfold hexEscape
    dsimp only
    rw [← hk, List.take_left, if_pos ⟨rfl, hall⟩, h1, if_neg hlt, if_pos hv]
  rw [show (c :: ds).length = k + 1 by rw [List.length_cons, hk], ← key]
  simp only [hexEscapes, List.mem_cons, Prod.mk.injEq, List.not_mem_nil, or_false] at hck
  rcases hck with ⟨rfl, rfl⟩ | ⟨rfl, rfl⟩ | ⟨rfl, rfl⟩ <;> rfl

theorem takeWhile_all {p : Char → Bool} {l : Str} (h : ∀ c ∈ l, p c = true) : l.takeWhile p = l := by
  induction l with
  | nil => rfl
  | cons c l ih => rw [List.takeWhile_cons, if_pos (h c (.head _)), ih fun x hx => h x (.tail _ hx)]

theorem takeWhile_stop {p : Char → Bool} {l : Str} (h : ∀ c ∈ l, p c = true) {r : Str} (hr : ∀ c, r.head? = some c → p c = false) :
    (l ++ r).takeWhile p = l := by
  induction l with
  | nil =>
    cases r with
    | nil => rfl
    | cons c r => rw [List.nil_append, List.takeWhile_cons, hr c rfl]; rfl
  | cons c l ih => rw [List.cons_append, List.takeWhile_cons, if_pos (h c (.head _)), ih fun x hx => h x (.tail _ hx)]

theorem octal_char {c : Char} (h : digitVal c < 8) : c ≠ '\n' ∧ c ≠ '\r' ∧ Dict.get? simpleEscapes c = none := by
  have hd := (digit_of (b := 8) (by decide) h)
  obtain ⟨h1, h2⟩ := hd
  generalize digitVal c = d at h1 h2
  have : d = 0 ∨ d = 1 ∨ d = 2 ∨ d = 3 ∨ d = 4 ∨ d = 5 ∨ d = 6 ∨ d = 7 := by omega
  rcases this with rfl | rfl | rfl | rfl | rfl | rfl | rfl | rfl <;> rcases h2 with h | h <;> cases h <;> decide

theorem octal_escape {ds rest : Str} (hd : ∀ c ∈ ds, digitVal c < 8) (hne : ds ≠ []) (hl : ds.length ≤ 3)
    (hmax : ds.length = 3 ∨ ∀ c, rest.head? = some c → isOctal c = false) :
    escape (ds ++ rest) = .ok ([Char.ofNat (numeral 8 ds)], ds.length) := by
  have hoct : ∀ c ∈ ds, isOctal c = true := fun c hc => by unfold isOctal; exact decide_eq_true (hd c hc)
  have htake : ((ds ++ rest).take 3).takeWhile isOctal = ds := by
    rcases hmax with h | h
    · rw [← h, List.take_left, takeWhile_all hoct]
    · rw [List.take_append, List.take_of_length_le hl]
      apply takeWhile_stop hoct
      intro c hc
      cases rest with
      | nil => simp at hc
      | cons r rest =>
        cases hk : 3 - ds.length with
        | zero => rw [hk] at hc; cases hc
        | succ k => rw [hk] at hc; exact h c hc
  cases ds with
  | nil => exact absurd rfl hne
  | cons c ds =>
    obtain ⟨h1, h2, h3⟩ := octal_char (hd c (.head _))
    rw [List.cons_append] at htake ⊢
    unfold escape
    dsimp only
    rw [if_neg h1, if_neg h2, h3]
    dsimp only
    rw [if_pos (hoct c (.head _)), htake]

theorem unknown_escape {c : Char} (hc : c ∉ escaping) (rest : Str) : escape (c :: rest) = .ok (['\\', c], 1) := by
  have hno : ¬ (isOctal c = true) := by
    rw [isOctal_iff]
    rintro ⟨d, h1, h2⟩
    have : d = 0 ∨ d = 1 ∨ d = 2 ∨ d = 3 ∨ d = 4 ∨ d = 5 ∨ d = 6 ∨ d = 7 := by omega
    rcases this with rfl | rfl | rfl | rfl | rfl | rfl | rfl | rfl <;> rcases h2 with h | h <;> cases h <;> revert hc <;> decide
  simp only [escaping, List.mem_cons, List.not_mem_nil, or_false, not_or] at hc
  obtain ⟨a1, a2, a3, a4, a5, a6, a7, a8, a9, a10, a11, a12, -, -, -, -, -, -, -, -, a13, a14, a15, a16, a17⟩ := hc
  have hg : Dict.get? simpleEscapes c = none := by
    unfold simpleEscapes
    simp only [Dict.get?]
    rw [if_neg (Ne.symm a3), if_neg (Ne.symm a4), if_neg (Ne.symm a5), if_neg (Ne.symm a6), if_neg (Ne.symm a7), if_neg (Ne.symm a8),
      if_neg (Ne.symm a9), if_neg (Ne.symm a10), if_neg (Ne.symm a11), if_neg (Ne.symm a12)]
  unfold escape
  dsimp only
  rw [if_neg a1, if_neg a2, hg]
  dsimp only
  rw [if_neg hno, if_neg a13, if_neg a14, if_neg a15, if_neg (by rintro (h | h); exact a16 h; exact a17 h)]

/-- One piece is read as what it stands for. -/
theorem readArgs_piece {p x t : Str} (h : Piece p x t) (done : List Str) (cur rest : Str) :
    readArgs (.lit 0 done cur) (p ++ (t ++ '"' :: rest)) = readArgs (.lit 0 done (cur ++ x)) (t ++ '"' :: rest) := by
  cases h with
  | char hc => exact readArgs_char hc done cur _
  | lineEnd he =>
    simp only [List.mem_cons, List.not_mem_nil, or_false] at he
    rcases he with rfl | rfl
    · exact readArgs_escape (q := ['\n']) rfl done cur
    · exact readArgs_escape (q := ['\r', '\n']) rfl done cur
  | oldLineEnd ht =>
    refine readArgs_escape (q := ['\r']) ?_ done cur
    have : (t ++ '"' :: rest).head? ≠ some '\n' := by
      rcases head_quote t rest with ⟨_, h⟩ | h
      · rw [h]; decide
      · rw [h]; exact ht
    show Except.ok (([] : Str), if (t ++ '"' :: rest).head? = some '\n' then 2 else 1) = _
    rw [if_neg this]
    rfl
  | @one c d _ hcd =>
    refine readArgs_escape (q := [c]) ?_ done cur
    simp only [oneCharEscapes, List.mem_cons, Prod.mk.injEq, List.not_mem_nil, or_false] at hcd
    rcases hcd with ⟨rfl, rfl⟩ | ⟨rfl, rfl⟩ | ⟨rfl, rfl⟩ | ⟨rfl, rfl⟩ | ⟨rfl, rfl⟩ | ⟨rfl, rfl⟩ | ⟨rfl, rfl⟩ | ⟨rfl, rfl⟩ | ⟨rfl, rfl⟩ |
      ⟨rfl, rfl⟩ <;> rfl
  | @octal ds n _ hn hne hl hmax =>
    obtain ⟨h1, h2⟩ := number_val (by decide) hn
    refine readArgs_escape (q := ds) ?_ done cur
    rw [← h1]
    refine octal_escape h2 hne hl ?_
    rcases hmax with h | h
    · exact .inl h
    · right
      intro c hc
      rcases head_quote t rest with ⟨_, h'⟩ | h'
      · rw [h'] at hc; cases hc; decide
      · rw [h'] at hc
        cases ho : isOctal c with
        | false => rfl
        | true => obtain ⟨d, hd⟩ := (isOctal_iff c).1 ho; exact absurd hd (h c d hc)
  | @hex c k ds n _ hck hn hk hv =>
    exact readArgs_escape (q := c :: ds) (hexEscape_ok hck hn hk hv) done cur
  | @unknown c _ hc => exact readArgs_escape (q := [c]) (unknown_escape hc _) done cur

/-! ### Words -/

theorem readArgs_literal {w x : Str} (h : Literal w x) (done : List Str) (cur rest : Str) :
    readArgs (.lit 0 done cur) (w ++ '"' :: rest) = readArgs (.after (done ++ [cur ++ x])) rest := by
  induction h generalizing cur with
  | nil => rw [List.nil_append, readArgs, if_pos rfl, List.append_nil]
  | cons hp _ ih => rw [List.append_assoc, readArgs_piece hp, ih, List.append_assoc]

theorem readArgs_bad {t : Str} (h : Bad t) (done : List Str) (cur rest : Str) :
    readArgs (.lit 0 done cur) (t ++ '"' :: rest) = syntaxError := by
  cases h with
  | @lineEnd c t hc =>
    simp only [List.mem_cons, List.not_mem_nil, or_false] at hc
    rw [List.cons_append, readArgs, if_neg (by rcases hc with rfl | rfl <;> decide), if_pos hc]
  | @short c k t hck hno =>
    rw [List.cons_append, readArgs, if_neg (by decide), if_neg (by decide), if_neg (by decide), if_pos rfl]
    have key : hexEscape k (t ++ '"' :: rest) = syntaxError := by
      unfold hexEscape
      dsimp only
      rw [if_neg]
      rintro ⟨h1, h2⟩
      rw [List.all_eq_true] at h2
      by_cases hl : k ≤ t.length
      · have e : (t ++ '"' :: rest).take k = t.take k := by
          rw [List.take_append, Nat.sub_eq_zero_of_le hl, List.take_zero, List.append_nil]
        rw [e] at h1 h2
        exact hno (t.take k) _ (List.take_prefix _ _) h1
          (number_of (by decide) _ _ rfl fun c hc => of_decide_eq_true (h2 c hc))
      · have hm : '"' ∈ (t ++ '"' :: rest).take k := by
          rw [List.take_append]
          apply List.mem_append_right
          cases hk : k - t.length with
          | zero => omega
          | succ j => exact .head _
        exact absurd (h2 _ hm) (by decide)
    have : escape ((c :: t) ++ '"' :: rest) = syntaxError := by
      rw [← key]
      simp only [hexEscapes, List.mem_cons, Prod.mk.injEq, List.not_mem_nil, or_false] at hck
      rcases hck with ⟨rfl, rfl⟩ | ⟨rfl, rfl⟩ | ⟨rfl, rfl⟩ <;> rfl
    rw [this]
    rfl
  | @big ds n t hn hk hb =>
    rw [List.cons_append, readArgs, if_neg (by decide), if_neg (by decide), if_neg (by decide), if_pos rfl]
    obtain ⟨h1, h2⟩ := number_val (by decide) hn
    have hall : ds.all isHex = true := by
      rw [List.all_eq_true]; intro x hx; unfold isHex; exact decide_eq_true (h2 x hx)
    have key : hexEscape 8 ((ds ++ t) ++ '"' :: rest) = syntaxError := by
      unfold hexEscape
      dsimp only
      rw [← hk, List.append_assoc, List.take_left, if_pos ⟨rfl, hall⟩, h1, if_pos hb]
    have : escape ('U' :: (ds ++ t) ++ '"' :: rest) = syntaxError := by rw [← key]; rfl
    rw [this]
    rfl

theorem readArgs_broken {w : Str} (h : Broken w) (done : List Str) (cur rest : Str) :
    readArgs (.lit 0 done cur) (w ++ '"' :: rest) = syntaxError := by
  induction h generalizing cur with
  | here h => exact readArgs_bad h done cur rest
  | later hp _ ih => rw [List.append_assoc, readArgs_piece hp, ih]

/-- After a word that takes its closing quote, the literal goes on. -/
theorem readArgs_dangling {w : Str} (h : Dangling w) (done : List Str) (cur rest : Str) :
    ∃ cur', readArgs (.lit 0 done cur) (w ++ '"' :: rest) = readArgs (.lit 0 done cur') rest := by
  induction h generalizing cur with
  | here => exact ⟨_, readArgs_escape (q := ['"']) (x := ['"']) rfl done cur⟩
  | later hp _ ih => rw [List.append_assoc, readArgs_piece hp]; exact ih _

/-! ### Calls -/

/-- The text of a call after its first argument. -/
def callTail : List Str → Str
  | [] => [')']
  | x :: ws => ',' :: '"' :: (x ++ '"' :: callTail ws)

theorem pythonCommand_eq (f x : Str) (ws : List Str) : pythonCommand f (x :: ws) = f ++ '(' :: '"' :: (x ++ '"' :: callTail ws) := by
  have key : ∀ (ws : List Str) (x : Str), joinStr py!"," ((x :: ws).map fun w => py!"\"" ++ w ++ py!"\"") ++ py!")" = '"' :: (x ++ '"' :: callTail ws) := by
    intro ws
    induction ws with
    | nil =>
      intro x
      show (['"'] ++ x ++ ['"']) ++ [')'] = _
      simp only [List.append_assoc, List.cons_append, List.nil_append, callTail]
    | cons y ws ih =>
      intro x
      have := ih y
      show ((['"'] ++ x ++ ['"']) ++ [','] ++ joinStr py!"," ((y :: ws).map fun w => py!"\"" ++ w ++ py!"\"")) ++ py!")" = _
      rw [List.append_assoc, this]
      simp only [List.append_assoc, List.cons_append, List.nil_append, callTail]
  unfold pythonCommand
  rw [List.append_assoc, key ws x]
  simp only [List.append_assoc, List.cons_append, List.nil_append]

theorem readArgs_words {ws xs : List Str} (h : Literals ws xs) {w x : Str} (hw : Literal w x) (done : List Str) (rest : Str) :
    readArgs (.lit 0 done []) (w ++ '"' :: (callTail ws ++ rest)) = .ok (done ++ x :: xs, rest) := by
  induction h generalizing w x done with
  | nil =>
    rw [readArgs_literal hw]
    show readArgs (.after _) (')' :: rest) = _
    rw [readArgs, if_neg (by decide), if_pos rfl, List.nil_append]
  | @cons y z ws xs hy _ ih =>
    rw [readArgs_literal hw]
    show readArgs (.after _) (',' :: '"' :: ((y ++ '"' :: callTail ws) ++ rest)) = _
    rw [readArgs, if_pos rfl, readArgs, List.append_assoc, List.cons_append, ih hy, List.nil_append, List.append_assoc]
    rfl

theorem readArgs_erroneous {ws : List Str} (h : Erroneous ws) (rest : Str) (hr : rest = [] ∨ rest.head? = some '\n') :
    ∀ w us, ws = w :: us → ∀ done, readArgs (.lit 0 done []) (w ++ '"' :: (callTail us ++ rest)) = syntaxError := by
  induction h with
  | @broken w ws hb =>
    intro w' us e done
    cases e
    exact readArgs_broken hb done [] _
  | @dangling w hd =>
    intro w' us e done
    cases e
    obtain ⟨cur, hc⟩ := readArgs_dangling hd done [] (callTail [] ++ rest)
    rw [hc]
    show readArgs (.lit 0 done cur) (')' :: rest) = _
    rw [readArgs_char (by decide)]
    rcases hr with rfl | hr
    · rfl
    · cases rest with
      | nil => cases hr
      | cons c rest =>
        cases hr
        rw [readArgs, if_neg (by decide), if_pos (.inl rfl)]
  | @later w x ws hw he ih =>
    intro w' us e done
    cases e
    rw [readArgs_literal hw]
    cases ws with
    | nil => cases he
    | cons y ws =>
      show readArgs (.after _) (',' :: '"' :: ((y ++ '"' :: callTail ws) ++ rest)) = _
      rw [readArgs, if_pos rfl, readArgs, List.append_assoc, List.cons_append]
      exact ih y ws rfl _

theorem call_name {f : Str} (hf : '(' ∉ f) (t : Str) :
    (f ++ '(' :: t).dropWhile (· ≠ '(') = '(' :: t ∧ (f ++ '(' :: t).takeWhile (· ≠ '(') = f := by
  induction f with
  | nil => exact ⟨rfl, rfl⟩
  | cons c f ih =>
    simp only [List.mem_cons, not_or] at hf
    obtain ⟨h1, h2⟩ := ih hf.2
    have hc : decide (c ≠ '(') = true := decide_eq_true (Ne.symm hf.1)
    refine ⟨?_, ?_⟩
    · rw [List.cons_append, List.dropWhile_cons, if_pos hc, h1]
    · rw [List.cons_append, List.takeWhile_cons, if_pos hc, h2]

theorem readCall_literals {f : Str} (hf : '(' ∉ f) {ws xs : List Str} (hne : ws ≠ []) (h : Literals ws xs) (rest : Str) :
    readCall (pythonCommand f ws ++ rest) = .ok ((f, xs), rest) := by
  cases h with
  | nil => exact absurd rfl hne
  | @cons w x ws xs hw h =>
    rw [pythonCommand_eq, List.append_assoc]
    unfold readCall
    rw [List.cons_append, (call_name hf _).1, (call_name hf _).2]
    dsimp only
    rw [List.cons_append, readArgs, List.append_assoc, List.cons_append, readArgs_words h hw]
    rfl

theorem readCall_erroneous {f : Str} (hf : '(' ∉ f) {ws : List Str} (h : Erroneous ws) (rest : Str)
    (hr : rest = [] ∨ rest.head? = some '\n') : readCall (pythonCommand f ws ++ rest) = syntaxError := by
  cases ws with
  | nil => cases h
  | cons w ws =>
    rw [pythonCommand_eq, List.append_assoc]
    unfold readCall
    rw [List.cons_append, (call_name hf _).1, (call_name hf _).2]
    dsimp only
    rw [List.cons_append, readArgs, List.append_assoc, List.cons_append, readArgs_erroneous h rest hr w ws rfl]
    rfl

/-! ### Texts that stand for themselves -/

theorem Readable.literal {w : Str} (h : Readable w) : Literal w w := by
  obtain ⟨h1, h2, h3, h4, h5⟩ := h
  induction w with
  | nil => exact .nil
  | cons c w ih =>
    simp only [List.mem_cons, not_or] at h1 h2 h3 h4 h5
    refine Literal.cons (p := [c]) (x := [c]) (.char ?_) (ih h1.2 h2.2 h3.2 h4.2 h5.2)
    simp only [List.mem_cons, List.not_mem_nil, or_false, not_or]
    exact ⟨Ne.symm h1.1, Ne.symm h2.1, Ne.symm h3.1, Ne.symm h4.1, Ne.symm h5.1⟩

theorem literals_of_readable {ws : List Str} (h : ∀ w ∈ ws, Readable w) : Literals ws ws := by
  induction ws with
  | nil => exact .nil
  | cons w ws ih => exact .cons (Readable.literal (h w (.head _))) (ih fun x hx => h x (.tail _ hx))

/-! ### A text has one reading -/

theorem literal_det (w x y : Str) (h : Literal w x) (h' : Literal w y) : x = y := by
  have e := (readArgs_literal h [] [] [')']).symm.trans (readArgs_literal h' [] [] [')'])
  have e1 : ∀ z : Str, readArgs (.after ([] ++ [[] ++ z])) [')'] = .ok ([z], []) := fun z => rfl
  rw [e1, e1] at e
  injection e with e
  injection e with e _
  injection e

theorem literal_not_broken {w x : Str} (h : Literal w x) : ¬ Broken w := by
  intro h'
  have e := (readArgs_literal h [] [] [')']).symm.trans (readArgs_broken h' [] [] [')'])
  cases e

theorem literal_not_dangling {w x : Str} (h : Literal w x) : ¬ Dangling w := by
  intro h'
  obtain ⟨cur, hc⟩ := readArgs_dangling h' [] [] []
  have e := (readArgs_literal h [] [] []).symm.trans hc
  cases e

theorem broken_not_dangling {w : Str} (h : Broken w) : ¬ Dangling w := by
  intro h'
  obtain ⟨cur, hc⟩ := readArgs_dangling h' [] [] ['"', ')']
  have e := (readArgs_broken h [] [] ['"', ')']).symm.trans hc
  cases e

theorem literals_not_erroneous (ws xs : List Str) (h : Literals ws xs) : ¬ Erroneous ws := by
  intro he
  induction he generalizing xs with
  | broken hb => cases h with | cons h1 _ => exact literal_not_broken h1 hb
  | dangling hd => cases h with | cons h1 _ => exact literal_not_dangling h1 hd
  | later _ _ ih => cases h with | cons _ h2 => exact ih _ h2

/-! ### Every text has a reading -/

/-- A backslash and what follows. -/
theorem escape_cases {t : Str} (hne : t ≠ []) (hq : Char.ofNat 0 ∉ t) (hN : t.head? ≠ some 'N')
    (hs : ∀ c k ds n, (c, k) ∈ hexEscapes → Number 16 ds n → 0xD800 ≤ n → n ≤ 0xDFFF → ¬ (c :: ds) <+: t) :
    Bad ('\\' :: t) ∨ ∃ p x r, t = p ++ r ∧ p ≠ [] ∧ Piece ('\\' :: p) x r := by
  cases t with
  | nil => exact absurd rfl hne
  | cons c t =>
    simp only [List.mem_cons, not_or] at hq
    have hex : ∀ k, (c, k) ∈ hexEscapes → Bad ('\\' :: c :: t) ∨ ∃ p x r, c :: t = p ++ r ∧ p ≠ [] ∧ Piece ('\\' :: p) x r := by
      intro k hk
      by_cases hd : ∃ ds n, ds <+: t ∧ ds.length = k ∧ Number 16 ds n
      · obtain ⟨ds, n, hp, hl, hn⟩ := hd
        obtain ⟨r, hr⟩ := hp
        by_cases hv : n.isValidChar
        · exact .inr ⟨c :: ds, _, r, by rw [← hr]; rfl, by simp, .hex hk hn hl hv⟩
        · left
          have hnv : ¬ (0xD800 ≤ n ∧ n ≤ 0xDFFF) := fun ⟨h1, h2⟩ => hs c k ds n hk hn h1 h2 ⟨r, by rw [← hr]; rfl⟩
          have hbig : 0x10FFFF < n := by
            unfold Nat.isValidChar at hv
            omega
          have hcU : c = 'U' ∧ k = 8 := by
            obtain ⟨hv1, hv2⟩ := number_val (by decide) hn
            have hb : ∀ m : Nat, ∀ ds : Str, ds.length = m → (∀ c ∈ ds, digitVal c < 16) → numeral 16 ds < 16 ^ m := by
              intro m
              induction m with
              | zero => intro ds h _; rw [List.eq_nil_of_length_eq_zero h]; decide
              | succ m ih =>
                intro ds h hds
                rcases snoc_cases ds with rfl | ⟨i, z, rfl⟩
                · cases h
                · have h1 := ih i (by simpa using h) fun x hx => hds x (List.mem_append_left _ hx)
                  have h2 := hds z (by simp)
                  rw [numeral_append, Nat.pow_succ]
                  omega
            have hb := hb k ds hl hv2
            rw [hv1] at hb
            simp only [hexEscapes, List.mem_cons, Prod.mk.injEq, List.not_mem_nil, or_false] at hk
            rcases hk with ⟨rfl, rfl⟩ | ⟨rfl, rfl⟩ | ⟨rfl, rfl⟩
            · omega
            · omega
            · exact ⟨rfl, rfl⟩
          obtain ⟨rfl, rfl⟩ := hcU
          rw [← hr]
          exact .big hn hl hbig
      · left
        exact .short hk fun ds n h1 h2 h3 => hd ⟨ds, n, h1, h2, h3⟩
    by_cases h1 : c = '\n'
    · subst h1; exact .inr ⟨['\n'], [], t, rfl, by simp, .lineEnd (by decide)⟩
    by_cases h2 : c = '\r'
    · subst h2
      by_cases h : t.head? = some '\n'
      · cases t with
        | nil => cases h
        | cons d t => cases h; exact .inr ⟨['\r', '\n'], [], t, rfl, by simp, .lineEnd (by decide)⟩
      · exact .inr ⟨['\r'], [], t, rfl, by simp, .oldLineEnd h⟩
    by_cases h3 : ∃ d, (c, d) ∈ oneCharEscapes
    · obtain ⟨d, hd⟩ := h3; exact .inr ⟨[c], [d], t, rfl, by simp, .one hd⟩
    by_cases h4 : isOctal c = true
    · right
      let ds := ((c :: t).take 3).takeWhile isOctal
      have hds : ds ≠ [] := by
        show ((c :: t.take 2).takeWhile isOctal) ≠ []
        rw [List.takeWhile_cons, if_pos h4]
        simp
      obtain ⟨r, hr⟩ : ds <+: c :: t := (List.takeWhile_prefix _).trans (List.take_prefix _ _)
      have hlen : ds.length ≤ 3 := by
        have := (List.takeWhile_prefix (l := (c :: t).take 3) isOctal).length_le
        rw [List.length_take] at this
        exact Nat.le_trans this (Nat.min_le_left _ _)
      have hall : ∀ x ∈ ds, digitVal x < 8 := by
        intro x hx
        have : ∀ (l : Str), ∀ x ∈ l.takeWhile isOctal, isOctal x = true := by
          intro l
          induction l with
          | nil => intro x hx; cases hx
          | cons y l ih =>
            intro x hx
            rw [List.takeWhile_cons] at hx
            split at hx
            · rename_i hy
              rcases List.mem_cons.1 hx with rfl | hx
              · exact hy
              · exact ih x hx
            · cases hx
        exact of_decide_eq_true (this _ x hx)
      refine ⟨ds, _, r, hr.symm, hds, .octal (number_of (by decide) _ _ rfl hall) hds hlen ?_⟩
      by_cases h : ds.length = 3
      · exact .inl h
      · right
        intro z d hz hd
        have ho : isOctal z = true := (isOctal_iff z).2 ⟨d, hd⟩
        cases r with
        | nil => cases hz
        | cons y r =>
          cases hz
          have e1 : (c :: t).take 3 = ds ++ (z :: r).take (3 - ds.length) := by
            rw [← hr, List.take_append, List.take_of_length_le hlen]
          obtain ⟨j, hj⟩ : ∃ j, 3 - ds.length = j + 1 := ⟨2 - ds.length, by omega⟩
          rw [hj] at e1
          have e2 : ds = (ds ++ z :: r.take j).takeWhile isOctal :=
            congrArg (List.takeWhile isOctal) e1
          have e3 : (ds ++ z :: r.take j).takeWhile isOctal = ds ++ (z :: r.take j).takeWhile isOctal := by
            have : ∀ (l m : Str), (∀ x ∈ l, isOctal x = true) → (l ++ m).takeWhile isOctal = l ++ m.takeWhile isOctal := by
              intro l m hl
              induction l with
              | nil => rfl
              | cons a l ih =>
                rw [List.cons_append, List.takeWhile_cons, if_pos (hl a (.head _)), ih fun x hx => hl x (.tail _ hx)]
                rfl
            exact this _ _ fun x hx => by unfold isOctal; exact decide_eq_true (hall x hx)
          rw [e3, List.takeWhile_cons, if_pos ho] at e2
          have := congrArg List.length e2
          simp at this
    by_cases h5 : c = 'x'
    · subst h5; exact hex 2 (by decide)
    by_cases h6 : c = 'u'
    · subst h6; exact hex 4 (by decide)
    by_cases h7 : c = 'U'
    · subst h7; exact hex 8 (by decide)
    refine .inr ⟨[c], _, t, rfl, by simp, .unknown ?_⟩
    intro hm
    have hoct : ∀ d, d ∈ py!"01234567" → c = d → False := by
      intro d hd e
      subst e
      simp only [List.mem_cons, List.not_mem_nil, or_false] at hd
      rcases hd with rfl | rfl | rfl | rfl | rfl | rfl | rfl | rfl <;> exact h4 (by decide)
    have hone : ∀ d e, (d, e) ∈ oneCharEscapes → c = d → False := fun d e hd he => h3 ⟨e, he ▸ hd⟩
    simp only [escaping, List.mem_cons, List.not_mem_nil, or_false] at hm
    rcases hm with h | h | h | h | h | h | h | h | h | h | h | h | h | h | h | h | h | h | h | h | h | h | h | h | h
    · exact h1 h
    · exact h2 h
    · exact hone _ '\\' (by decide) h
    · exact hone _ '\'' (by decide) h
    · exact hone _ '"' (by decide) h
    · exact hone _ '\u0007' (by decide) h
    · exact hone _ '\u0008' (by decide) h
    · exact hone _ '\u000C' (by decide) h
    · exact hone _ '\n' (by decide) h
    · exact hone _ '\r' (by decide) h
    · exact hone _ '\t' (by decide) h
    · exact hone _ '\u000B' (by decide) h
    · exact hoct _ (by decide) h
    · exact hoct _ (by decide) h
    · exact hoct _ (by decide) h
    · exact hoct _ (by decide) h
    · exact hoct _ (by decide) h
    · exact hoct _ (by decide) h
    · exact hoct _ (by decide) h
    · exact hoct _ (by decide) h
    · exact h5 h
    · exact h6 h
    · exact h7 h
    · exact hN (by rw [h]; rfl)
    · exact hq.1 h.symm

/-- Every text without quotes, NUL, names of characters and surrogates is a literal, an error, or takes its closing quote. -/
theorem literal_cases : ∀ (k : Nat) (w : Str), w.length ≤ k → '"' ∉ w → Char.ofNat 0 ∉ w → ¬ ['\\', 'N'] <:+: w →
    (∀ c k ds n, (c, k) ∈ hexEscapes → Number 16 ds n → 0xD800 ≤ n → n ≤ 0xDFFF → ¬ ('\\' :: c :: ds) <:+: w) →
    (∃ x, Literal w x) ∨ Broken w ∨ Dangling w
  | 0, w, hk, _, _, _, _ => by
    rw [List.eq_nil_of_length_eq_zero (Nat.le_zero.1 hk)]
    exact .inl ⟨[], .nil⟩
  | k + 1, w, hk, hq, h0, hN, hs => by
    cases w with
    | nil => exact .inl ⟨[], .nil⟩
    | cons c w =>
      simp only [List.length_cons] at hk
      have hq' := hq
      have h0' := h0
      simp only [List.mem_cons, not_or] at hq h0
      -- what is left is a text of the same kind
      have next : ∀ r, r <:+ w → (∃ x, Literal r x) ∨ Broken r ∨ Dangling r := by
        intro r hr
        have hin : ∀ u : Str, u <:+: r → u <:+: c :: w := fun u h =>
          h.trans (hr.isInfix.trans (List.suffix_cons c w).isInfix)
        exact literal_cases k r (Nat.le_trans hr.length_le (by omega)) (fun h => hq.2 (hr.subset h)) (fun h => h0.2 (hr.subset h))
          (fun h => hN (hin _ h)) fun d j ds n a1 a2 a3 a4 h => hs d j ds n a1 a2 a3 a4 (hin _ h)
      have step : ∀ p x r, Piece p x r → p ++ r = c :: w → r <:+ w → (∃ x, Literal (c :: w) x) ∨ Broken (c :: w) ∨ Dangling (c :: w) := by
        intro p x r hp e hr
        rw [← e]
        rcases next r hr with ⟨y, h⟩ | h | h
        · exact .inl ⟨_, .cons hp h⟩
        · exact .inr (.inl (.later hp h))
        · exact .inr (.inr (.later hp h))
      by_cases hb : c = '\\'
      · subst hb
        by_cases hw : w = []
        · subst hw; exact .inr (.inr .here)
        · rcases escape_cases hw h0.2 (fun h => by
              cases w with
              | nil => cases h
              | cons d w => cases h; exact hN ⟨[], w, rfl⟩)
            (fun d j ds n a1 a2 a3 a4 ⟨r, hr⟩ => hs d j ds n a1 a2 a3 a4 ⟨[], r, by rw [← hr]; simp⟩) with h | ⟨p, x, r, e, _, hp⟩
          · exact .inr (.inl (.here h))
          · exact step _ _ r hp (by rw [e]; rfl) ⟨p, e.symm⟩
      · by_cases hn : c = '\n' ∨ c = '\r'
        · exact .inr (.inl (.here (.lineEnd (by simpa using hn))))
        · refine step [c] [c] w (.char ?_) rfl (List.suffix_refl _)
          simp only [List.mem_cons, List.not_mem_nil, or_false, not_or]
          exact ⟨Ne.symm hq.1, hb, fun h => hn (.inl h), fun h => hn (.inr h), Ne.symm h0.1⟩

end CPE.SetEnv
