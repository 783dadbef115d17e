import Verif.Spec.Gather
import Verif.Props.Unrolled
import Verif.Props.Dispatch
import Verif.Props.Interpolation
import Verif.Props.IniText
import Verif.Props.Shlex
/-
Gathering the options of a configuration is unrolling it.
-/
namespace CPE
open Spec Props

section
variable {c : Cfg} {ok : Str → Prop} {l : Nat} {root s : Str} {path : List Str} {os ws : List (Str × Option Str)}

/-- No section and no option is given twice. -/
structure Cfg.Once (c : Cfg) : Prop where
  names : (Dict.keys c.sections).Nodup
  own : ∀ x ∈ c.sections, (Dict.keys x.2).Nodup
  common : (Dict.keys c.common).Nodup

theorem get?_of_entry {ν : Type} {d : Dict Str ν} (hn : (Dict.keys d).Nodup) {k : Str} {v : ν} (h : (k, v) ∈ d) :
    Dict.get? d k = some v := by
  induction d with
  | nil => cases h
  | cons x d ih =>
    obtain ⟨k', v'⟩ := x
    have hn : k' ∉ Dict.keys d ∧ (Dict.keys d).Nodup := by simpa [Dict.keys] using hn
    rcases List.mem_cons.1 h with h | h
    · cases h; simp [Dict.get?]
    · have hk : k ∈ Dict.keys d := List.mem_map.2 ⟨_, h, rfl⟩
      have hne : k' ≠ k := fun e => hn.1 (e ▸ hk)
      have := ih hn.2 h
      unfold Dict.get?
      simp only [hne]
      first | exact this | simpa using this

theorem body_raw (hc : c.Once) (h : BodyOf c s os) :
    c.optionNames s = some (os.map Prod.fst) ∧ ∀ kv ∈ os, c.rawValue s kv.1 = some kv.2 := by
  rcases h with ⟨h1, rfl⟩ | ⟨h1, own, h2, rfl⟩
  · constructor
    · unfold Cfg.optionNames; rw [if_pos h1]; rfl
    · intro kv hkv
      unfold Cfg.rawValue
      rw [if_pos h1]
      exact get?_of_entry hc.common hkv
  · have hg : Dict.get? c.sections s = some own := get?_of_entry hc.names h2
    constructor
    · unfold Cfg.optionNames
      rw [if_neg h1, hg]
      dsimp only
      rw [List.map_append]
      congr 2
      have : ∀ l : List (Str × Option Str), (Dict.keys l).filter (fun k => !Dict.mem own k) =
          (l.filter fun kv => decide (kv.1 ∉ own.map Prod.fst)).map Prod.fst := by
        intro l
        induction l with
        | nil => rfl
        | cons x l ih =>
          have hx : (!Dict.mem own x.1) = decide (x.1 ∉ own.map Prod.fst) := by
            rw [Bool.eq_iff_iff]
            simp only [Bool.not_eq_true', decide_eq_true_eq]
            rw [← Bool.not_eq_true, Dict.mem_iff]
            rfl
          have hk : Dict.keys (x :: l) = x.1 :: Dict.keys l := rfl
          rw [hk, List.filter_cons, List.filter_cons, hx, ih]
          split <;> rfl
      exact this _
    · intro kv hkv
      unfold Cfg.rawValue
      rw [if_neg h1, hg]
      dsimp only
      rcases List.mem_append.1 hkv with hkv | hkv
      · rw [get?_of_entry (hc.own _ h2) hkv]
      · rw [List.mem_filter] at hkv
        have hno : Dict.get? own kv.1 = none := by
          cases hx : Dict.get? own kv.1 with
          | none => rfl
          | some v =>
            have : kv.1 ∈ Dict.keys own := (Dict.mem_iff _ _).1 (by unfold Dict.mem; rw [hx]; rfl)
            exact absurd this (of_decide_eq_true hkv.2)
        rw [hno]
        exact get?_of_entry hc.common hkv.1

theorem body_none (h : ∀ os, ¬ BodyOf c s os) : c.optionNames s = none := by
  by_cases h1 : s = c.commonName
  · exact absurd (.inl ⟨h1, rfl⟩) (h c.common)
  · unfold Cfg.optionNames
    rw [if_neg h1]
    cases hg : Dict.get? c.sections s with
    | none => rfl
    | some own =>
      have hm : (s, own) ∈ c.sections := by
        generalize c.sections = d at hg
        induction d with
        | nil => cases hg
        | cons x d ih =>
          unfold Dict.get? at hg
          by_cases hx : x.1 = s
          · simp [hx] at hg; subst hg; subst hx; simp
          · simp [hx] at hg
            exact List.mem_cons_of_mem _ (ih hg)
      exact absurd (.inr ⟨h1, own, hm, rfl⟩) (h _)

theorem shown_value {k : Str} {v u : Option Str} (hr : c.rawValue s k = some v) (h : ShownAs c s v u) :
    ∃ x, c.value s k = .ok x ∧ (x.map fun y => stripQuotes (strip y)) = u := by
  cases h with
  | none => exact ⟨none, (C39_value_iff _ _ _ _).2 (.inl ⟨hr, rfl⟩), rfl⟩
  | @text v x u h1 h2 => exact ⟨some x, (C39_value_iff _ _ _ _).2 (.inr ⟨v, x, hr, rfl, h1⟩), ((cleaned_iff _ _).1 h2).symm⟩

theorem opName_plain {w t : Str} (ht : '_' ∉ t) (h : opName w = t) : w = t := by
  subst h
  unfold opName at ht ⊢
  induction w with
  | nil => rfl
  | cons a w ih =>
    rw [List.map_cons] at ht ⊢
    rw [List.mem_cons, not_or] at ht
    by_cases ha : a = '-'
    · rw [if_pos ha] at ht; exact absurd rfl ht.1
    · rw [if_neg ha, ← ih ht.2]

theorem meaning_store_of {k w : Str} {v u : Option Str} (hk : Tight k) (hw : Begins k w) (h1 : w ≠ py!"use")
    (h2 : w ≠ py!"initialize") (h3 : w ≠ py!"finalize") (hr : c.rawValue s k = some v) (hv : ShownAs c s v u) :
    meaning (baseEnv c l) root s k = .events [.store k u] := by
  obtain ⟨x, hx, hu⟩ := shown_value hr hv
  obtain ⟨ps, hws⟩ := hw
  have g1 : opName w ≠ py!"use" := fun e => h1 (opName_plain (by decide) e)
  have g2 : opName w ≠ py!"initialize" := fun e => h2 (opName_plain (by decide) e)
  have g3 : opName w ≠ py!"finalize" := fun e => h3 (opName_plain (by decide) e)
  have hp : publicHandler (baseEnv c l) (opName w) = none := by
    unfold publicHandler
    rw [if_neg g2, if_neg g3]; rfl
  have hq : (baseEnv c l).priv (opName w) = none := by
    unfold baseEnv baseClass
    dsimp only
    rw [if_neg g1]
  unfold meaning
  rw [show (baseEnv c l).cfg = c from rfl, hx]
  dsimp only
  rw [strip_tight hk, (C31_split_iff_words _ _).2 hws]
  dsimp only
  rw [hp, hq, hu]
  split <;> rfl

theorem meaning_call_of {k w : Str} {v u : Option Str} (hk : Tight k) (hw : Begins k w)
    (h2 : w = py!"initialize" ∨ w = py!"finalize") (hr : c.rawValue s k = some v) (hv : ShownAs c s v u) :
    ∃ h hc, meaning (baseEnv c l) root s k = .events [.call h hc] := by
  obtain ⟨x, hx, hu⟩ := shown_value hr hv
  obtain ⟨ps, hws⟩ := hw
  have ho : OpWord w ∧ (∃ h, publicHandler (baseEnv c l) (opName w) = some h) ∧ (baseEnv c l).priv (opName w) = none := by
    rcases h2 with rfl | rfl
    · exact ⟨by decide, ⟨_, rfl⟩, rfl⟩
    · exact ⟨by decide, ⟨_, rfl⟩, rfl⟩
  obtain ⟨ho, ⟨h, hp⟩, hq⟩ := ho
  unfold meaning
  rw [show (baseEnv c l).cfg = c from rfl, hx]
  dsimp only
  rw [strip_tight hk, (C31_split_iff_words _ _).2 hws]
  dsimp only
  rw [if_pos ho, hp, hq]
  exact ⟨_, _, rfl⟩

theorem meaning_link_of {k t : Str} {more : List Str} {v u : Option Str} (hk : Tight k) (hw : Words k (py!"use" :: t :: more))
    (hr : c.rawValue s k = some v) (hv : ShownAs c s v u) : meaning (baseEnv c l) root s k = .link t := by
  obtain ⟨x, hx, hu⟩ := shown_value hr hv
  unfold meaning
  rw [show (baseEnv c l).cfg = c from rfl, hx]
  dsimp only
  rw [strip_tight hk, (C31_split_iff_words _ _).2 hw]
  dsimp only
  rw [if_pos (by decide)]
  rfl

theorem gathers_unrolls (hc : c.Once) (h : Gathers c ok path s os ws) : (∀ kv ∈ os, c.rawValue s kv.1 = some kv.2) →
    ∃ evs, Unrolls (baseEnv c l) root (.opts path s (os.map Prod.fst)) evs ∧ stores evs = ws ∧
      (∀ x ∈ evs, ∀ e, ¬ Fault x e) ∧ ∀ t ∈ visits evs, ok t := by
  induction h with
  | nil => exact fun _ => ⟨[], .nil, rfl, by simp, by simp [visits]⟩
  | own hk hw h1 h2 h3 hv _ ih =>
    intro hr
    obtain ⟨evs, g1, g2, g3, g4⟩ := ih fun kv hm => hr kv (by simp [hm])
    refine ⟨_, .plain (meaning_store_of hk hw h1 h2 h3 (hr _ List.mem_cons_self) hv) g1, ?_, ?_, ?_⟩
    · simp [stores, g2]
    · intro x hx e
      rcases List.mem_cons.1 hx with rfl | hx
      · intro h; cases h
      · exact g3 x hx e
    · simpa [visits] using g4
  | hook hk hw h2 hv _ ih =>
    intro hr
    obtain ⟨evs, g1, g2, g3, g4⟩ := ih fun kv hm => hr kv (by simp [hm])
    obtain ⟨h, hcall, hm⟩ := meaning_call_of (l := l) (root := root) hk hw h2 (hr _ List.mem_cons_self) hv
    refine ⟨_, .plain hm g1, ?_, ?_, ?_⟩
    · simp [stores, g2]
    · intro x hx e
      rcases List.mem_cons.1 hx with rfl | hx
      · intro h; cases h
      · exact g3 x hx e
    · simpa [visits] using g4
  | @use path s k v t more u os os' ws ws' hk hw hv hp hok hb _ _ ih1 ih2 =>
    intro hr
    obtain ⟨hn, hraw⟩ := body_raw hc hb
    obtain ⟨sub, f1, f2, f3, f4⟩ := ih1 hraw
    obtain ⟨evs, g1, g2, g3, g4⟩ := ih2 fun kv hm => hr kv (by simp [hm])
    refine ⟨_, .link (meaning_link_of hk hw (hr _ List.mem_cons_self) hv) hp (.sec hn f1) g1, ?_, ?_, ?_⟩
    · rw [stores_append, g2]
      show stores sub ++ ws = _
      rw [f2]
    · intro x hx e
      rcases List.mem_append.1 hx with hx | hx
      · rcases List.mem_cons.1 hx with rfl | hx
        · intro h; cases h
        · exact f3 x hx e
      · exact g3 x hx e
    · intro x hx
      rw [visits_append] at hx
      rcases List.mem_append.1 hx with hx | hx
      · rcases List.mem_cons.1 hx with rfl | hx
        · exact hok
        · exact f4 x hx
      · exact g4 x hx
  | again hk hw hv hp _ ih =>
    intro hr
    obtain ⟨evs, g1, g2, g3, g4⟩ := ih fun kv hm => hr kv (by simp [hm])
    refine ⟨_, .cyclic (meaning_link_of hk hw (hr _ List.mem_cons_self) hv) hp g1, ?_, ?_, ?_⟩
    · simp [stores, g2]
    · intro x hx e
      rcases List.mem_cons.1 hx with rfl | hx
      · intro h; cases h
      · exact g3 x hx e
    · simpa [visits] using g4

theorem unrolls_opts_cons {E : Env Unit Unit} {k : Str} {ks : List Str} {a b : List (Ev Unit Unit)}
    (ha : Unrolls E root (.opts path s [k]) a) (hb : Unrolls E root (.opts path s ks) b) :
    Unrolls E root (.opts path s (k :: ks)) (a ++ b) := by
  cases ha with
  | plain hm hr => cases hr; rw [List.append_nil]; exact .plain hm hb
  | cyclic hm ht hr => cases hr; exact .cyclic hm ht hb
  | link hm ht hs hr => cases hr; rw [List.append_nil]; exact .link hm ht hs hb

theorem breaks_unrolls (hc : c.Once) (h : Breaks c path s os) : (∀ kv ∈ os, c.rawValue s kv.1 = some kv.2) →
    ∃ a t b, Unrolls (baseEnv c l) root (.opts path s (os.map Prod.fst)) (a ++ .missing t :: b) ∧
      ∀ x ∈ a, ∀ e, ¬ Fault x e := by
  have rest : ∀ path s ks, ∃ evs, Unrolls (baseEnv c l) root (.opts path s ks) evs := fun path s ks =>
    unrolls_opts_total s ks fun t ht => unrolls_total _ _ _ _ ht
  induction h with
  | @here path s k v t more u os hk hw hv hp hb =>
    intro hr
    obtain ⟨evs, g⟩ := rest path s (os.map Prod.fst)
    have := Unrolls.link (meaning_link_of (l := l) (root := root) hk hw (hr _ List.mem_cons_self) hv) hp (.missing (body_none hb)) g
    exact ⟨[], t, evs, this, by simp⟩
  | @inside path s k v t more u os os' hk hw hv hp hb _ ih =>
    intro hr
    obtain ⟨hn, hraw⟩ := body_raw hc hb
    obtain ⟨a, t', b, g1, g2⟩ := ih hraw
    obtain ⟨evs, g⟩ := rest path s (os.map Prod.fst)
    refine ⟨.visit t :: a, t', b ++ evs, ?_, ?_⟩
    · have := Unrolls.link (meaning_link_of (l := l) (root := root) hk hw (hr _ List.mem_cons_self) hv) hp (.sec hn g1) g
      simpa using this
    · intro x hx e
      rcases List.mem_cons.1 hx with rfl | hx
      · intro h; cases h
      · exact g2 x hx e
  | @later path s o os ws hg _ ih =>
    intro hr
    obtain ⟨a, t, b, g1, g2⟩ := ih fun kv hm => hr kv (by simp [hm])
    obtain ⟨evs, f1, _, f3, _⟩ := gathers_unrolls (l := l) (root := root) hc hg fun kv hm => hr kv (by
      rw [List.mem_singleton] at hm; simp [hm])
    refine ⟨evs ++ a, t, b, ?_, ?_⟩
    · have := unrolls_opts_cons f1 g1
      simpa using this
    · intro x hx e
      rcases List.mem_append.1 hx with hx | hx
      · exact f3 x hx e
      · exact g2 x hx e

/-! ### Documents give each section and option once -/

theorem setAll_once (os : List DocOption) : ∀ {d : Dict Str (Option Str)}, (Dict.keys d).Nodup → (Dict.keys (setAll d os)).Nodup := by
  unfold setAll
  induction os with
  | nil => exact fun h => h
  | cons o os ih => exact fun h => ih (nodup_set h _ _)

theorem onto_once (doc : Doc) : ∀ {c : Cfg}, c.Once → (doc.onto c).Once := by
  unfold Doc.onto
  induction doc with
  | nil => exact fun h => h
  | cons x doc ih =>
    intro c h
    rw [List.foldl_cons]
    apply ih
    split
    · exact ⟨h.names, h.own, setAll_once _ h.common⟩
    · refine ⟨nodup_set h.names _ _, ?_, h.common⟩
      intro y hy
      have hold : ∀ o, Dict.get? c.sections x.1 = some o → (Dict.keys o).Nodup := by
        intro o ho
        have hm : (x.1, o) ∈ c.sections := by
          generalize c.sections = d at ho
          induction d with
          | nil => cases ho
          | cons z d ih =>
            unfold Dict.get? at ho
            by_cases hz : z.1 = x.1
            · simp [hz] at ho; subst ho; rw [← hz]; simp
            · simp [hz] at ho
              exact List.mem_cons_of_mem _ (ih ho)
        exact h.own _ hm
      have : ∀ (d : Dict Str (Dict Str (Option Str))) (v : Dict Str (Option Str)), y ∈ Dict.set d x.1 v → y ∈ d ∨ y.2 = v := by
        intro d v
        induction d with
        | nil => intro h; simp [Dict.set] at h; exact .inr (by rw [h])
        | cons z d ih =>
          intro h
          unfold Dict.set at h
          split at h
          · rcases List.mem_cons.1 h with h | h
            · exact .inr (by rw [h])
            · exact .inl (List.mem_cons_of_mem _ h)
          · rcases List.mem_cons.1 h with h | h
            · exact .inl (by rw [h]; simp)
            · rcases ih h with h | h
              · exact .inl (List.mem_cons_of_mem _ h)
              · exact .inr h
      rcases this _ _ hy with hy | hy
      · exact h.own y hy
      · rw [hy]
        apply setAll_once
        cases hg : Dict.get? c.sections x.1 with
        | none => simp [Dict.keys]
        | some o => exact hold o hg

theorem docs_once (docs : List Doc) : ∀ {c : Cfg}, c.Once → (docs.foldl (fun c doc => doc.onto c) c).Once := by
  induction docs with
  | nil => exact fun h => h
  | cons d docs ih => exact fun h => ih (onto_once d h)

end
end CPE
