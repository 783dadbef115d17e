import Verif.Proofs.TopLevel
/-
C60: the top level files of GenConfig and LoadEnv.
-/
namespace CPE.Props
open CPE CPE.KW CPE.Spec CPE.SetEnv
variable {n m : Nat} {fs : FS} {ini : Str} {c : Cfg}

/-- The object after a history of accesses to `gen_config_config_data`, each with what is on disk at that time;
exceptions are caught. -/
def accessAll (n : Nat) (ini : Str) : List FS → GCTop → GCTop
  | [], g => g
  | fs :: rest, g => accessAll n ini rest (GCTop.configData n fs ini g).2

theorem anchored_steady (h : Anchored ini) : Steady ini := by
  rcases h with h | ⟨ns, h1, h2⟩
  · exact .inl h
  · rw [names_iff] at h1
    subst h1
    refine .inr ?_
    match hx : (PPath.ofStr ini).parts with
    | [] => rfl
    | [_] => rfl
    | _ :: _ :: _ => rw [hx] at h2; simp at h2

/-- The data of the required sections: what the file resolves to, with some of the wanted paths put in place. -/
def Inv (c : Cfg) (ini : Str) (secs : List Str) (keys : List (Str × Str)) (f : Full Unit Unit) : Prop :=
  ∀ s ∈ secs, Ready c s f ∧ ∃ d, Resolved (baseEnv c 0) s d ∧ ∀ k, stored f.obj s k = Dict.get? d k ∨
    ((s, k) ∈ keys ∧ ∃ v, v ≠ [] ∧ Dict.get? d k = some (some v) ∧ stored f.obj s k = some (some (place ini v)))

theorem goodPath_placed (hst : Steady ini) (must : Bool) {v : Str} (hv : v ≠ []) :
    GoodPath fs ini must (some (some (place ini v))) ↔ GoodPath fs ini must (some (some v)) := by
  rw [goodPath_iff, goodPath_iff]
  constructor
  · rintro ⟨v', h1, _, h3⟩
    cases h1
    rw [place_steady hst] at h3
    exact ⟨v, rfl, hv, h3⟩
  · rintro ⟨v', h1, _, h3⟩
    cases h1
    exact ⟨_, rfl, place_ne_nil hv, by rw [place_steady hst]; exact h3⟩

theorem inv_good {secs : List Str} {keys : List (Str × Str)} {f : Full Unit Unit} (hst : Steady ini) (must : Bool)
    (hi : Inv c ini secs keys f) (hk : ∀ p ∈ keys, p.1 ∈ secs) :
    (∀ p ∈ keys, GoodPath fs ini must (stored f.obj p.1 p.2)) ↔ NamesFiles (baseEnv c 0) fs ini must keys := by
  have one : ∀ p ∈ keys, (GoodPath fs ini must (stored f.obj p.1 p.2) ↔
      ∃ d, Resolved (baseEnv c 0) p.1 d ∧ GoodPath fs ini must (Dict.get? d p.2)) := by
    intro p hp
    obtain ⟨_, d, hd, h⟩ := hi p.1 (hk p hp)
    have : GoodPath fs ini must (stored f.obj p.1 p.2) ↔ GoodPath fs ini must (Dict.get? d p.2) := by
      rcases h p.2 with h | ⟨_, v, hv, h1, h2⟩
      · rw [h]
      · rw [h1, h2]; exact goodPath_placed hst must hv
    rw [this]
    constructor
    · exact fun h => ⟨d, hd, h⟩
    · rintro ⟨d', hd', h⟩
      rw [resolved_unique hd hd']; exact h
  constructor
  · intro h s k hm
    exact (one (s, k) hm).1 (h (s, k) hm)
  · intro h p hp
    exact (one p hp).2 (h p.1 p.2 hp)

/-- One access on data that has been read. -/
theorem access_inv {t : TopFile} (hp : t.Proper) (hst : Steady ini) {f : Full Unit Unit}
    (hi : Inv c ini t.sections t.keys f) :
    (NamesFiles (baseEnv c 0) fs ini t.mustExist t.keys → ∃ f', checkTop n fs ini t f = (.ok (), f') ∧
      Inv c ini t.sections t.keys f' ∧
      ∀ p ∈ t.keys, ∃ d v, Resolved (baseEnv c 0) p.1 d ∧ Dict.get? d p.2 = some (some v) ∧
        stored f'.obj p.1 p.2 = some (some (place ini v))) ∧
    (¬ NamesFiles (baseEnv c 0) fs ini t.mustExist t.keys → ∃ f', checkTop n fs ini t f = (.exc .valueError, f') ∧
      Inv c ini t.sections t.keys f') := by
  have hr : ∀ s ∈ t.sections, Ready c s f := fun s hs => (hi s hs).1
  rw [checkTop_ready hr, ← inv_good hst t.mustExist hi hp.inSections]
  obtain ⟨h1, h2⟩ := checkKeys_ready (n := n) (fs := fs) (ini := ini) t.mustExist t.keys f hp.keys
    fun p hp' => hr _ (hp.inSections p hp')
  refine ⟨fun h => ?_, fun h => ?_⟩
  · obtain ⟨f', e, hr', _, hs'⟩ := h1 h
    refine ⟨f', e, fun s hs => ⟨hr' s (hr s hs), ?_⟩, fun p hp' => ?_⟩
    · obtain ⟨_, d, hd, hk⟩ := hi s hs
      refine ⟨d, hd, fun k => ?_⟩
      by_cases hm : (s, k) ∈ t.keys
      · obtain ⟨v, a1, a2⟩ := (hs' s k).1 hm
        have hne : v ≠ [] := by
          obtain ⟨v', q, b1, b2, _⟩ := h (s, k) hm
          rw [a1] at b1; cases b1; exact b2
        rcases hk k with g | ⟨_, v0, g0, g1, g2⟩
        · exact .inr ⟨hm, v, hne, by rw [← g]; exact a1, a2⟩
        · rw [g2] at a1; cases a1
          exact .inr ⟨hm, v0, g0, g1, by rw [a2, place_steady hst]⟩
      · rw [(hs' s k).2 hm]; exact hk k
    · obtain ⟨_, d, hd, hk⟩ := hi p.1 (hp.inSections p hp')
      obtain ⟨v, a1, a2⟩ := (hs' p.1 p.2).1 hp'
      rcases hk p.2 with g | ⟨_, v0, g0, g1, g2⟩
      · exact ⟨d, v, hd, by rw [← g]; exact a1, a2⟩
      · rw [g2] at a1; cases a1
        exact ⟨d, v0, hd, g1, by rw [a2, place_steady hst]⟩
  · obtain ⟨f', e, hr', _, hs'⟩ := h2 h
    refine ⟨f', e, fun s hs => ⟨hr' s (hr s hs), ?_⟩⟩
    obtain ⟨_, d, hd, hk⟩ := hi s hs
    refine ⟨d, hd, fun k => ?_⟩
    rcases hs' s k with a | ⟨hm, v, hv, a1, a2⟩
    · rw [a]; exact hk k
    · rcases hk k with g | ⟨_, v0, g0, g1, g2⟩
      · exact .inr ⟨hm, v, hv, by rw [← g]; exact a1, a2⟩
      · rw [g2] at a1; cases a1
        exact .inr ⟨hm, v0, g0, g1, by rw [a2, place_steady hst]⟩

theorem inv_readIn {secs : List Str} {keys : List (Str × Str)} {f : Full Unit Unit} (h : ∀ s ∈ secs, ReadIn c s f) :
    Inv c ini secs keys f := by
  intro s hs
  obtain ⟨hr, d, h1, h2⟩ := h s hs
  exact ⟨hr, d, h2, fun k => .inl (by unfold stored; rw [h1]; rfl)⟩

/-- The first access. -/
theorem access_first {t : TopFile} (hp : t.Proper) (hst : Steady ini) (hc : ((newOn [ini]).configdata fs).1 = .ok c)
    (hn : c.sectionNames.length + 3 ≤ n) (hd : DefaultApart c)
    (hs : ∀ s ∈ t.sections, s ∈ c.sectionNames ∧ Sound (baseEnv c 0) s) :
    (NamesFiles (baseEnv c 0) fs ini t.mustExist t.keys → ∃ f', checkTop n fs ini t (topNew ini) = (.ok (), f') ∧
      Inv c ini t.sections t.keys f' ∧
      ∀ p ∈ t.keys, ∃ d v, Resolved (baseEnv c 0) p.1 d ∧ Dict.get? d p.2 = some (some v) ∧
        stored f'.obj p.1 p.2 = some (some (place ini v))) ∧
    (¬ NamesFiles (baseEnv c 0) fs ini t.mustExist t.keys →
      ∃ f', checkTop n fs ini t (topNew ini) = (.exc .valueError, f') ∧ Inv c ini t.sections t.keys f') := by
  obtain ⟨f, e, hr, _⟩ := checkTop_first hp hc hn hd hs
  have hi : Inv c ini t.sections t.keys f := inv_readIn hr
  have : checkTop n fs ini t (topNew ini) = checkTop n fs ini t f := by
    rw [checkTop_apply, e, checkTop_ready fun s hs => (hr s hs).ready]
  rw [this]
  exact access_inv hp hst hi

/-- The first access, for any path of the file. -/
theorem access_once {t : TopFile} (hp : t.Proper) (hc : ((newOn [ini]).configdata fs).1 = .ok c)
    (hn : c.sectionNames.length + 3 ≤ n) (hd : DefaultApart c)
    (hs : ∀ s ∈ t.sections, s ∈ c.sectionNames ∧ Sound (baseEnv c 0) s) :
    (NamesFiles (baseEnv c 0) fs ini t.mustExist t.keys → ∃ f', checkTop n fs ini t (topNew ini) = (.ok (), f') ∧
      (∀ s ∈ t.sections, Ready c s f') ∧
      ∀ p ∈ t.keys, ∃ d v, Resolved (baseEnv c 0) p.1 d ∧ Dict.get? d p.2 = some (some v) ∧
        stored f'.obj p.1 p.2 = some (some (place ini v))) ∧
    (¬ NamesFiles (baseEnv c 0) fs ini t.mustExist t.keys →
      ∃ f', checkTop n fs ini t (topNew ini) = (.exc .valueError, f')) := by
  obtain ⟨f, e, hr, _⟩ := checkTop_first hp hc hn hd hs
  have hready : ∀ s ∈ t.sections, Ready c s f := fun s hs => (hr s hs).ready
  have hst : ∀ p ∈ t.keys, ∃ d, Resolved (baseEnv c 0) p.1 d ∧ stored f.obj p.1 p.2 = Dict.get? d p.2 := by
    intro p hp'
    obtain ⟨_, d, h1, h2⟩ := hr p.1 (hp.inSections p hp')
    exact ⟨d, h2, by unfold stored; rw [h1]; rfl⟩
  have hall : (∀ p ∈ t.keys, GoodPath fs ini t.mustExist (stored f.obj p.1 p.2)) ↔
      NamesFiles (baseEnv c 0) fs ini t.mustExist t.keys := by
    constructor
    · intro h s k hm
      obtain ⟨d, h1, h2⟩ := hst (s, k) hm
      exact ⟨d, h1, by have := h (s, k) hm; rwa [h2] at this⟩
    · intro h p hm
      obtain ⟨d, h1, h2⟩ := hst p hm
      obtain ⟨d', g1, g2⟩ := h p.1 p.2 hm
      rw [h2, resolved_unique h1 g1]; exact g2
  have e1 : checkTop n fs ini t (topNew ini) = M.forEach t.keys (checkKey n fs ini t.mustExist) f := by
    rw [checkTop_apply, e]
  obtain ⟨h1, h2⟩ := checkKeys_ready (n := n) (fs := fs) (ini := ini) t.mustExist t.keys f hp.keys
    fun p hp' => hready _ (hp.inSections p hp')
  rw [e1, ← hall]
  refine ⟨fun h => ?_, fun h => ?_⟩
  · obtain ⟨f', e2, r2, _, s2⟩ := h1 h
    refine ⟨f', e2, fun s hs => r2 s (hready s hs), fun p hm => ?_⟩
    obtain ⟨v, a1, a2⟩ := (s2 p.1 p.2).1 hm
    obtain ⟨d, b1, b2⟩ := hst p hm
    exact ⟨d, v, b1, by rw [← b2]; exact a1, a2⟩
  · obtain ⟨f', e2, _⟩ := h2 h
    exact ⟨f', e2⟩

theorem genConfigTop_proper : genConfigTop.Proper := by
  refine ⟨?_, ?_, ?_, ?_, ?_⟩ <;> decide +kernel

theorem loadEnvTop_proper : loadEnvTop.Proper := by
  refine ⟨?_, ?_, ?_, ?_, ?_⟩ <;> decide +kernel

/-- The state of a GenConfig object whose file was found fine as far as sections go. -/
def GInv (c : Cfg) (ini : Str) (g : GCTop) : Prop :=
  ∃ f, g.data = some f ∧ Inv c ini genConfigSections genConfigFiles f

theorem configData_step (hst : Steady ini) {g : GCTop}
    (hg : GInv c ini g ∨ (g.data = none ∧ ((newOn [ini]).configdata fs).1 = .ok c ∧ c.sectionNames.length + 3 ≤ n ∧ DefaultApart c ∧
      ∀ s ∈ genConfigSections, s ∈ c.sectionNames ∧ Sound (baseEnv c 0) s)) :
    ∃ f', (NamesFiles (baseEnv c 0) fs ini true genConfigFiles ∧
        GCTop.configData n fs ini g = (.ok (), { g with data := some f' }) ∧
        (∀ p ∈ genConfigFiles, ∃ d v, Resolved (baseEnv c 0) p.1 d ∧ Dict.get? d p.2 = some (some v) ∧
          stored f'.obj p.1 p.2 = some (some (place ini v))) ∨
      ¬ NamesFiles (baseEnv c 0) fs ini true genConfigFiles ∧
        GCTop.configData n fs ini g = (.exc .valueError, { g with data := some f' })) ∧
      Inv c ini genConfigSections genConfigFiles f' := by
  have key : (NamesFiles (baseEnv c 0) fs ini true genConfigFiles →
      ∃ f', checkTop n fs ini genConfigTop (g.data.getD (topNew ini)) = (.ok (), f') ∧
      Inv c ini genConfigSections genConfigFiles f' ∧
      ∀ p ∈ genConfigFiles, ∃ d v, Resolved (baseEnv c 0) p.1 d ∧ Dict.get? d p.2 = some (some v) ∧
        stored f'.obj p.1 p.2 = some (some (place ini v))) ∧
    (¬ NamesFiles (baseEnv c 0) fs ini true genConfigFiles →
      ∃ f', checkTop n fs ini genConfigTop (g.data.getD (topNew ini)) = (.exc .valueError, f') ∧
        Inv c ini genConfigSections genConfigFiles f') := by
    rcases hg with ⟨f, hf, hi⟩ | ⟨hf, h1, h2, h3, h4⟩
    · rw [hf]; exact access_inv genConfigTop_proper hst hi
    · rw [hf]; exact access_first genConfigTop_proper hst h1 h2 h3 h4
  unfold GCTop.configData
  dsimp only
  by_cases hN : NamesFiles (baseEnv c 0) fs ini true genConfigFiles
  · obtain ⟨f', e, hi, hk⟩ := key.1 hN
    rw [e]
    exact ⟨f', .inl ⟨hN, rfl, hk⟩, hi⟩
  · obtain ⟨f', e, hi⟩ := key.2 hN
    rw [e]
    exact ⟨f', .inr ⟨hN, rfl⟩, hi⟩

theorem accessAll_inv (hst : Steady ini) : ∀ (hist : List FS) {g : GCTop}, GInv c ini g → GInv c ini (accessAll n ini hist g)
  | [], _, h => h
  | fs :: rest, g, h => by
    obtain ⟨f', h1, h2⟩ := configData_step (n := n) (fs := fs) hst (.inl h)
    refine accessAll_inv hst rest ⟨f', ?_, h2⟩
    rcases h1 with ⟨_, e, _⟩ | ⟨_, e⟩ <;> rw [e]

theorem history_inv (hst : Steady ini) (hist : List FS)
    (hc : ∀ fs0, (hist ++ [fs]).head? = some fs0 → ((newOn [ini]).configdata fs0).1 = .ok c)
    (hn : c.sectionNames.length + 3 ≤ n) (hd : DefaultApart c)
    (hs : ∀ s ∈ genConfigSections, s ∈ c.sectionNames ∧ Sound (baseEnv c 0) s) :
    GInv c ini (accessAll n ini hist GCTop.new) ∨ ((accessAll n ini hist GCTop.new).data = none ∧
      ((newOn [ini]).configdata fs).1 = .ok c ∧ c.sectionNames.length + 3 ≤ n ∧ DefaultApart c ∧
      ∀ s ∈ genConfigSections, s ∈ c.sectionNames ∧ Sound (baseEnv c 0) s) := by
  cases hist with
  | nil => exact .inr ⟨rfl, hc fs rfl, hn, hd, hs⟩
  | cons fs0 rest =>
    obtain ⟨f', h1, h2⟩ := configData_step (n := n) (fs := fs0) (g := GCTop.new) hst (.inr ⟨rfl, hc fs0 rfl, hn, hd, hs⟩)
    refine .inl (accessAll_inv hst rest ⟨f', ?_, h2⟩)
    rcases h1 with ⟨_, e, _⟩ | ⟨_, e⟩ <;> rw [e]

theorem accessAll_args (n : Nat) (ini : Str) : ∀ (hist : List FS) (g : GCTop), (accessAll n ini hist g).args = g.args
  | [], _ => rfl
  | _ :: rest, _ => accessAll_args n ini rest _

/-- C60: gen-config.ini whose two sections are there and unroll without a fault. Whatever was accessed before and
whatever happened on disk meanwhile, an access to `gen_config_config_data` succeeds exactly if each of the five options
is a non-empty path of something that is there now; otherwise it raises ValueError. After a success the data of the two
sections is what the file says, but for the five options, which are the paths seen from the directory of the file. -/
theorem C60_gen_config (ha : Anchored ini) (hist : List FS)
    (hc : ∀ fs0, (hist ++ [fs]).head? = some fs0 → ((newOn [ini]).configdata fs0).1 = .ok c)
    (hn : c.sectionNames.length + 3 ≤ n) (hd : DefaultApart c)
    (hs : ∀ s ∈ genConfigSections, s ∈ c.sectionNames ∧ Sound (baseEnv c 0) s) :
    (NamesFiles (baseEnv c 0) fs ini true genConfigFiles →
      ∃ f, GCTop.configData n fs ini (accessAll n ini hist GCTop.new) = (.ok (), { data := some f, args := none }) ∧
        ∀ s ∈ genConfigSections, ∃ d d', Resolved (baseEnv c 0) s d ∧
          (∀ m fs', f.runOp baseClass m fs' (.getItem s) = (.ok (.opts d'), f)) ∧
          ∀ k, ((s, k) ∈ genConfigFiles → ∃ v q, Dict.get? d k = some (some v) ∧ PointsTo ini v q ∧
              Dict.get? d' k = some (some q)) ∧
            ((s, k) ∉ genConfigFiles → Dict.get? d' k = Dict.get? d k)) ∧
    (¬ NamesFiles (baseEnv c 0) fs ini true genConfigFiles →
      (GCTop.configData n fs ini (accessAll n ini hist GCTop.new)).1 = .exc .valueError) := by
  have hst := anchored_steady ha
  have hg := history_inv (n := n) (fs := fs) hst hist hc hn hd hs
  obtain ⟨f', h1, h2⟩ := configData_step (n := n) (fs := fs) hst hg
  rcases h1 with ⟨hN, e, hk⟩ | ⟨hN, e⟩
  · refine ⟨fun _ => ⟨f', ?_, fun s hs' => ?_⟩, fun h => absurd hN h⟩
    · rw [e, accessAll_args]; rfl
    · obtain ⟨hr, d, hd1, hd2⟩ := h2 s hs'
      obtain ⟨d', hd'⟩ := hr.has
      have hst' : ∀ k, stored f'.obj s k = Dict.get? d' k := fun k => by unfold stored; rw [hd']; rfl
      refine ⟨d, d', hd1, fun m fs' => ?_, fun k => ⟨fun hm => ?_, fun hm => ?_⟩⟩
      · have := topOp_access (n := m) (fs := fs') hr (op := .getItem s) rfl
        rw [hd'] at this
        exact this
      · obtain ⟨d0, v, g1, g2, g3⟩ := hk (s, k) hm
        rw [resolved_unique hd1 g1]
        exact ⟨v, _, g2, (pointsTo_iff ..).2 rfl, by rw [← hst']; exact g3⟩
      · rcases hd2 k with g | ⟨g, _⟩
        · rw [← hst', g]
        · exact absurd g hm
  · exact ⟨fun h => absurd h hN, fun _ => by rw [e]⟩

theorem topLoad_fails {t : TopFile} (hp : t.Proper) {e : PyExc} (h : ((newOn [ini]).configdata fs).1 = .exc e) :
    checkTop n fs ini t (topNew ini) = (.exc e, ((newOn [ini]).configdata fs).2) := by
  rw [checkTop_apply]
  cases hL : t.sections with
  | nil => exact absurd hL hp.some
  | cons s L =>
    rw [forEach_cons]
    have : topOp n fs (.hasSection s) (topNew ini) = (.exc e, ((newOn [ini]).configdata fs).2) := by
      unfold topOp Full.runOp
      rw [topNew_eq]
      have hnone : (newOn [ini]).cfg = none := by rw [newOn_eq]
      rw [hnone]
      dsimp only
      have ht : EdOp.touch ((newOn [ini]).env baseClass emptyCfg) (.hasSection s) (newOn [ini]).obj =
        (.ok true, (newOn [ini]).obj) := rfl
      rw [ht]
      dsimp only
      cases hx : (newOn [ini]).configdata fs with
      | mk r f' =>
        rw [hx] at h
        dsimp only at h
        subst h
        dsimp only
        congr 1
        unfold Full.configdata at hx
        rw [newOn_eq] at hx
        dsimp only at hx
        have hx2 := (Prod.mk.inj hx).2
        rw [← hx2, newOn_eq]
    unfold checkSection
    rw [M.bind_def, this]

theorem top_bad_section {t : TopFile} (hp : t.Proper) (hc : ((newOn [ini]).configdata fs).1 = .ok c)
    (hn : c.sectionNames.length + 3 ≤ n) (hd : DefaultApart c) {pre post : List Str} {s : Str}
    (hL : t.sections = pre ++ s :: post)
    (hpre : ∀ x ∈ pre, x ∈ c.sectionNames ∧ Sound (baseEnv c 0) x) :
    (s ∉ c.sectionNames → (checkTop n fs ini t (topNew ini)).1 = .exc .valueError) ∧
    (∀ e, s ∈ c.sectionNames → Faults (baseEnv c 0) s e → (checkTop n fs ini t (topNew ini)).1 = .exc e) := by
  have hcm : c.commonName = commonSectionName := (newOn_names hc).2.1
  have hnm : ∀ x ∈ t.sections, x ≠ [] ∧ x ≠ c.commonName := fun x hx => hcm ▸ hp.names x hx
  have hlv : (topLoaded ini c).level ≤ 4 := by unfold topLoaded; rw [newOn_eq]; exact Nat.le_refl 4
  obtain ⟨h1, h2⟩ := checkSections_bad (fs := fs) hn hd (s := s) (post := post) pre (topLoaded ini c) (hL ▸ hp.sections) rfl hlv
    (fun x hx => ⟨(hnm x (by rw [hL]; simp [hx])).1, (hnm x (by rw [hL]; simp [hx])).2, topLoaded_fresh ini c x, hpre x hx⟩)
    (hnm s (by rw [hL]; simp)).1 (hnm s (by rw [hL]; simp)).2 (topLoaded_fresh ini c s)
  have hx := topLoaded_sections (n := n) hc hp.some
  rw [hL] at hx
  rw [← hx] at h1 h2
  have conv : ∀ e, (M.forEach (pre ++ s :: post) (checkSection n fs) (topNew ini)).1 = .exc e →
      (checkTop n fs ini t (topNew ini)).1 = .exc e := by
    intro e h
    rw [checkTop_apply, hL]
    cases hy : M.forEach (pre ++ s :: post) (checkSection n fs) (topNew ini) with
    | mk r f' => rw [hy] at h; dsimp only at h; subst h; rfl
  exact ⟨fun h => conv _ (h1 h), fun e h h' => conv _ (h2 e h h')⟩

/-- C60: what the first access raises otherwise: the exception of loading the file; ValueError for a section that is not
there; the first fault of a section that is. -/
theorem C60_gen_config_fails :
    (∀ e, ((newOn [ini]).configdata fs).1 = .exc e → (GCTop.configData n fs ini GCTop.new).1 = .exc e) ∧
    ∀ pre s post, genConfigSections = pre ++ s :: post → ((newOn [ini]).configdata fs).1 = .ok c →
      c.sectionNames.length + 3 ≤ n → DefaultApart c → (∀ x ∈ pre, x ∈ c.sectionNames ∧ Sound (baseEnv c 0) x) →
      (s ∉ c.sectionNames → (GCTop.configData n fs ini GCTop.new).1 = .exc .valueError) ∧
      (∀ e, s ∈ c.sectionNames → Faults (baseEnv c 0) s e → (GCTop.configData n fs ini GCTop.new).1 = .exc e) := by
  have e : (GCTop.configData n fs ini GCTop.new).1 = (checkTop n fs ini genConfigTop (topNew ini)).1 := rfl
  rw [e]
  refine ⟨fun e h => by rw [topLoad_fails genConfigTop_proper h], fun pre s post hL hc hn hd hpre => ?_⟩
  exact top_bad_section genConfigTop_proper hc hn hd hL hpre

/-- C60: a file that is not there at the first access is missed for good: IOError, and then ValueError at every access,
even if the file has appeared since. -/
theorem C60_missing_file {fs0 : FS} (h : (fs0 ini).isFile = false) (hist : List FS) :
    (GCTop.configData n fs0 ini GCTop.new).1 = .exc .ioError ∧
    (GCTop.configData n fs ini (accessAll n ini (fs0 :: hist) GCTop.new)).1 = .exc .valueError := by
  have hl : (newOn [ini]).configdata fs0 = (.exc .ioError, { newOn [ini] with cfg := some emptyCfg }) := by
    unfold Full.configdata
    rw [newOn_eq]
    dsimp only
    simp [loadFiles, h]
  have h0 : GCTop.configData n fs0 ini GCTop.new =
      (.exc .ioError, { data := some { newOn [ini] with cfg := some emptyCfg }, args := none }) := by
    unfold GCTop.configData
    have := topLoad_fails (n := n) (ini := ini) (fs := fs0) genConfigTop_proper (e := .ioError) (by rw [hl])
    dsimp only [GCTop.new, Option.getD]
    rw [this, hl]
  have again : ∀ fs : FS, GCTop.configData n fs ini { data := some { newOn [ini] with cfg := some emptyCfg }, args := none } =
      (.exc .valueError, { data := some { newOn [ini] with cfg := some emptyCfg }, args := none }) := by
    intro fs
    rw [newOn_eq]
    rfl
  have all : ∀ hist : List FS, accessAll n ini hist { data := some { newOn [ini] with cfg := some emptyCfg }, args := none } =
      { data := some { newOn [ini] with cfg := some emptyCfg }, args := none } := by
    intro hist
    induction hist with
    | nil => rfl
    | cons x xs ih => unfold accessAll; rw [again x]; exact ih
  refine ⟨by rw [h0], ?_⟩
  unfold accessAll
  rw [h0]
  dsimp only
  rw [all, again]

/-- C60: if the file is given by a relative path with a directory, the second access takes each relative value to be
below that directory once more: when that file is not there, it raises ValueError, although the first access succeeded
and nothing changed. -/
theorem C60_drift {ns vs : List Str} {s k v : Str} {d : Options} (hr : ¬ IsAbs ini) (hns : Names ini ns)
    (hc : ((newOn [ini]).configdata fs).1 = .ok c)
    (hn : c.sectionNames.length + 3 ≤ n) (hd : DefaultApart c)
    (hs : ∀ s ∈ genConfigSections, s ∈ c.sectionNames ∧ Sound (baseEnv c 0) s)
    (hN : NamesFiles (baseEnv c 0) fs ini true genConfigFiles)
    (hk : (s, k) ∈ genConfigFiles) (hres : Resolved (baseEnv c 0) s d) (hv : Dict.get? d k = some (some v))
    (hrel : ¬ IsAbs v) (hvs : Names v vs) (habs : fs (pathText [] (ns.dropLast ++ (ns.dropLast ++ vs))) = .absent) :
    (GCTop.configData n fs ini GCTop.new).1 = .ok () ∧
    (GCTop.configData n fs ini (accessAll n ini [fs] GCTop.new)).1 = .exc .valueError := by
  obtain ⟨f, e, hri, _⟩ := checkTop_first (t := genConfigTop) genConfigTop_proper hc hn hd hs
  have hready : ∀ s ∈ genConfigSections, Ready c s f := fun s hs => (hri s hs).ready
  have e1 : checkTop n fs ini genConfigTop (topNew ini) = checkTop n fs ini genConfigTop f := by
    rw [checkTop_apply, e, checkTop_ready hready]
  have hst : ∀ s ∈ genConfigSections, ∀ d, Resolved (baseEnv c 0) s d → ∀ k, stored f.obj s k = Dict.get? d k := by
    intro s hs d hd k
    obtain ⟨_, d', h1, h2⟩ := hri s hs
    rw [resolved_unique hd h2]
    unfold stored
    rw [h1]; rfl
  have hsec : ∀ p ∈ genConfigFiles, p.1 ∈ genConfigSections := by decide +kernel
  have hgood : ∀ p ∈ genConfigTop.keys, GoodPath fs ini true (stored f.obj p.1 p.2) := by
    intro p hp
    obtain ⟨d', h1, h2⟩ := hN p.1 p.2 hp
    rw [hst p.1 (hsec p hp) d' h1]
    exact h2
  obtain ⟨f', e2, hr', _, hs'⟩ := (checkKeys_ready (n := n) (fs := fs) (ini := ini) true genConfigTop.keys f genConfigTop_proper.keys
    fun p hp => hready _ (hsec p hp)).1 hgood
  have e3 : checkTop n fs ini genConfigTop (topNew ini) = (.ok (), f') := by
    rw [e1, checkTop_ready hready]; exact e2
  have e4 : GCTop.configData n fs ini GCTop.new = (.ok (), { data := some f', args := none }) := by
    show ((checkTop n fs ini genConfigTop (topNew ini)).1,
      ({ data := some (checkTop n fs ini genConfigTop (topNew ini)).2, args := none } : GCTop)) = _
    rw [e3]
  refine ⟨by rw [e4], ?_⟩
  unfold accessAll accessAll
  rw [e4]
  show (checkTop n fs ini genConfigTop f').1 = _
  rw [checkTop_ready fun s hs => hr' s (hready s hs)]
  obtain ⟨_, h2⟩ := checkKeys_ready (n := n) (fs := fs) (ini := ini) true genConfigTop.keys f' genConfigTop_proper.keys
    fun p hp => hr' _ (hready _ (hsec p hp))
  obtain ⟨f2, e5, _⟩ := h2 fun hall => by
    have hg := hall (s, k) hk
    obtain ⟨v', a1, a2⟩ := (hs' s k).1 hk
    rw [hst s (hsec _ hk) d hres, hv] at a1
    cases a1
    dsimp only at hg
    rw [a2, goodPath_iff] at hg
    obtain ⟨v2, b1, _, b3⟩ := hg
    cases b1
    have b3 := b3 rfl
    rw [place_rel_twice hr hrel] at b3
    unfold pathExists at b3
    rw [names_iff] at hns hvs
    subst hns; subst hvs
    rw [ofStr_rel] at b3
    · change fs _ = _ at habs
      simp only [decide_eq_true_eq] at b3
      exact b3 habs
    · intro x hx
      rcases List.mem_append.1 hx with h | h
      · exact parts_plain ini x (List.dropLast_subset _ h)
      · exact plain_append x h
  exact congrArg Prod.fst e5

/-! ### the files -/

/-- `chooseFile` on data in which the path is in place. -/
theorem chooseFile_placed {f : Full Unit Unit} {s k v : Str} {d : Options} (hr : Ready c s f) (resolve : Str → Str)
    (given : Str × Str → Option Str) (hd : Resolved (baseEnv c 0) s d) (hv : Dict.get? d k = some (some v))
    (hst : stored f.obj s k = some (some (place ini v))) :
    ∃ a, chooseFile n fs resolve (given (s, k)) s k f = (.ok a, f) ∧ Chosen (baseEnv c 0) ini resolve given s k a := by
  unfold chooseFile
  cases hg : given (s, k) with
  | some p => exact ⟨p, rfl, .inl ⟨p, hg, rfl⟩⟩
  | none =>
    refine ⟨resolve (PPath.ofStr (place ini v)).toStr, ?_, .inr ⟨hg, d, v, _, _, hd, hv, (pointsTo_iff ..).2 rfl,
      (normal_iff ..).2 rfl, rfl⟩⟩
    dsimp only
    rw [M.bind_def, topValue_ready hr, hst]
    rfl

theorem onData_apply {α : Type} {m : M (Full Unit Unit) α} {f : Full Unit Unit} {as : Option (List Str)} {a : α}
    (h : m f = (.ok a, f)) : GCTop.onData ini m { data := some f, args := as } = (.ok a, { data := some f, args := as }) := by
  unfold GCTop.onData
  dsimp only [Option.getD]
  rw [h]

/-- C60: the five files of GenConfig, at any time after any accesses: the ones of the command line, and for the others
the paths of gen-config.ini, seen from its directory. If gen-config.ini is not fine `args` raises ValueError, even if
all five files are given; nothing is remembered then. -/
theorem C60_args (ha : Anchored ini) (resolve : Str → Str) (given : Str × Str → Option Str) (hist : List FS)
    (hc : ∀ fs0, (hist ++ [fs]).head? = some fs0 → ((newOn [ini]).configdata fs0).1 = .ok c)
    (hn : c.sectionNames.length + 3 ≤ n) (hd : DefaultApart c)
    (hs : ∀ s ∈ genConfigSections, s ∈ c.sectionNames ∧ Sound (baseEnv c 0) s) :
    (NamesFiles (baseEnv c 0) fs ini true genConfigFiles →
      ∃ a1 a2 a3 a4 a5 g, GCTop.getArgs n fs ini resolve given (accessAll n ini hist GCTop.new) =
          (.ok [a1, a2, a3, a4, a5], g) ∧ g.args = some [a1, a2, a3, a4, a5] ∧
        Chosen (baseEnv c 0) ini resolve given py!"gen-config" py!"supported-config-flags" a1 ∧
        Chosen (baseEnv c 0) ini resolve given py!"gen-config" py!"config-specs" a2 ∧
        Chosen (baseEnv c 0) ini resolve given py!"load-env" py!"supported-systems" a3 ∧
        Chosen (baseEnv c 0) ini resolve given py!"load-env" py!"supported-envs" a4 ∧
        Chosen (baseEnv c 0) ini resolve given py!"load-env" py!"environment-specs" a5) ∧
    (¬ NamesFiles (baseEnv c 0) fs ini true genConfigFiles →
      (GCTop.getArgs n fs ini resolve given (accessAll n ini hist GCTop.new)).1 = .exc .valueError ∧
      (GCTop.getArgs n fs ini resolve given (accessAll n ini hist GCTop.new)).2.args = none) := by
  have hst := anchored_steady ha
  have hg := history_inv (n := n) (fs := fs) hst hist hc hn hd hs
  have hargs : (accessAll n ini hist GCTop.new).args = none := accessAll_args n ini hist GCTop.new
  obtain ⟨f1, h1, i1⟩ := configData_step (n := n) (fs := fs) hst hg
  have step : GCTop.getArgs n fs ini resolve given (accessAll n ini hist GCTop.new) =
      GCTop.getArgs n fs ini resolve given (accessAll n ini hist GCTop.new) := rfl
  conv at step =>
    rhs
    unfold GCTop.getArgs
    rw [M.read_bind]
    rw [hargs]
    dsimp only
    rw [M.bind_def]
  rcases h1 with ⟨hN, e1, k1⟩ | ⟨hN, e1⟩
  · refine ⟨fun _ => ?_, fun h => absurd hN h⟩
    rw [hargs] at e1
    obtain ⟨f2, h2, i2⟩ := configData_step (n := n) (fs := fs) (g := { data := some f1, args := none }) hst (.inl ⟨f1, rfl, i1⟩)
    rcases h2 with ⟨_, e2, k2⟩ | ⟨hN', _⟩
    · have file1 : ∀ k, (py!"gen-config", k) ∈ genConfigFiles → ∃ a, chooseFile n fs resolve (given (py!"gen-config", k)) py!"gen-config" k f1 = (.ok a, f1) ∧
          Chosen (baseEnv c 0) ini resolve given py!"gen-config" k a := by
        intro k hk
        obtain ⟨d, v, g1, g2, g3⟩ := k1 _ hk
        exact chooseFile_placed (i1 _ (by decide +kernel)).1 resolve given g1 g2 g3
      have file2 : ∀ k, (py!"load-env", k) ∈ genConfigFiles → ∃ a, chooseFile n fs resolve (given (py!"load-env", k)) py!"load-env" k f2 = (.ok a, f2) ∧
          Chosen (baseEnv c 0) ini resolve given py!"load-env" k a := by
        intro k hk
        obtain ⟨d, v, g1, g2, g3⟩ := k2 _ hk
        exact chooseFile_placed (i2 _ (by decide +kernel)).1 resolve given g1 g2 g3
      obtain ⟨a1, c1, p1⟩ := file1 py!"supported-config-flags" (by decide +kernel)
      obtain ⟨a2, c2, p2⟩ := file1 py!"config-specs" (by decide +kernel)
      obtain ⟨a3, c3, p3⟩ := file2 py!"supported-systems" (by decide +kernel)
      obtain ⟨a4, c4, p4⟩ := file2 py!"supported-envs" (by decide +kernel)
      obtain ⟨a5, c5, p5⟩ := file2 py!"environment-specs" (by decide +kernel)
      refine ⟨a1, a2, a3, a4, a5, { data := some f2, args := some [a1, a2, a3, a4, a5] }, ?_, rfl, p1, p2, p3, p4, p5⟩
      rw [step, e1]
      dsimp only
      rw [M.bind_def, onData_apply c1]
      dsimp only
      rw [M.bind_def, onData_apply c2]
      dsimp only
      rw [M.bind_def, e2]
      dsimp only
      rw [M.bind_def, onData_apply c3]
      dsimp only
      rw [M.bind_def, onData_apply c4]
      dsimp only
      rw [M.bind_def, onData_apply c5]
      rfl
    · exact absurd hN hN'
  · refine ⟨fun h => absurd h hN, fun _ => ?_⟩
    rw [step, e1]
    exact ⟨rfl, hargs⟩

/-- C60: once computed, the files stay, whatever is on disk later and whatever the command line says. -/
theorem C60_args_stay (resolve : Str → Str) (given : Str × Str → Option Str) {g : GCTop} {a : List Str}
    (h : g.args = some a) (hist : List FS) :
    GCTop.getArgs n fs ini resolve given (accessAll m ini hist g) = (.ok a, accessAll m ini hist g) := by
  unfold GCTop.getArgs
  rw [M.read_bind, accessAll_args, h]
  rfl

/-- C60: the three files of LoadEnv: the ones of the command line, and for the others the paths of load-env.ini, seen
from its directory; they need not be there. ValueError if one of the three options is missing or empty, even if all
files are given. -/
theorem C60_load_env (resolve : Str → Str) (given : Str × Str → Option Str)
    (hc : ((newOn [ini]).configdata fs).1 = .ok c)
    (hn : c.sectionNames.length + 3 ≤ n) (hd : DefaultApart c)
    (hs : ∀ s ∈ loadEnvSections, s ∈ c.sectionNames ∧ Sound (baseEnv c 0) s) :
    (NamesFiles (baseEnv c 0) fs ini false loadEnvFiles →
      ∃ a1 a2 a3, leFiles n fs ini resolve given = .ok [a1, a2, a3] ∧
        Chosen (baseEnv c 0) ini resolve given py!"load-env" py!"supported-systems" a1 ∧
        Chosen (baseEnv c 0) ini resolve given py!"load-env" py!"supported-envs" a2 ∧
        Chosen (baseEnv c 0) ini resolve given py!"load-env" py!"environment-specs" a3) ∧
    (¬ NamesFiles (baseEnv c 0) fs ini false loadEnvFiles →
      leFiles n fs ini resolve given = .exc .valueError) := by
  obtain ⟨h1, h2⟩ := access_once (n := n) (t := loadEnvTop) loadEnvTop_proper hc hn hd hs
  refine ⟨fun hN => ?_, fun hN => ?_⟩
  · obtain ⟨f, e, hi, hk⟩ := h1 hN
    have file : ∀ k, (py!"load-env", k) ∈ loadEnvFiles → ∃ a, chooseFile n fs resolve (given (py!"load-env", k)) py!"load-env" k f = (.ok a, f) ∧
        Chosen (baseEnv c 0) ini resolve given py!"load-env" k a := by
      intro k hm
      obtain ⟨d, v, g1, g2, g3⟩ := hk _ hm
      exact chooseFile_placed (hi _ (by decide +kernel)) resolve given g1 g2 g3
    obtain ⟨a1, c1, p1⟩ := file py!"supported-systems" (by decide +kernel)
    obtain ⟨a2, c2, p2⟩ := file py!"supported-envs" (by decide +kernel)
    obtain ⟨a3, c3, p3⟩ := file py!"environment-specs" (by decide +kernel)
    refine ⟨a1, a2, a3, ?_, p1, p2, p3⟩
    unfold leFiles
    rw [M.bind_def, e]
    dsimp only
    rw [M.bind_def, c1]
    dsimp only
    rw [M.bind_def, c2]
    dsimp only
    rw [M.bind_def, c3]
    rfl
  · obtain ⟨f, e⟩ := h2 hN
    unfold leFiles
    rw [M.bind_def, e]

/-- C60: what the constructor of LoadEnv raises otherwise. -/
theorem C60_load_env_fails (resolve : Str → Str) (given : Str × Str → Option Str) :
    (∀ e, ((newOn [ini]).configdata fs).1 = .exc e → leFiles n fs ini resolve given = .exc e) ∧
    (((newOn [ini]).configdata fs).1 = .ok c → c.sectionNames.length + 3 ≤ n → DefaultApart c →
      (py!"load-env" ∉ c.sectionNames → leFiles n fs ini resolve given = .exc .valueError) ∧
      (∀ e, py!"load-env" ∈ c.sectionNames → Faults (baseEnv c 0) py!"load-env" e →
        leFiles n fs ini resolve given = .exc e)) := by
  have conv : ∀ e, (checkTop n fs ini loadEnvTop (topNew ini)).1 = .exc e → leFiles n fs ini resolve given = .exc e := by
    intro e h
    unfold leFiles
    rw [M.bind_def]
    cases hx : checkTop n fs ini loadEnvTop (topNew ini) with
    | mk r f => rw [hx] at h; dsimp only at h; subst h; rfl
  refine ⟨fun e h => conv e (by rw [topLoad_fails loadEnvTop_proper h]), fun hc hn hd => ?_⟩
  obtain ⟨h1, h2⟩ := top_bad_section (n := n) loadEnvTop_proper hc hn hd (pre := []) (post := []) (s := py!"load-env") rfl (by simp)
  exact ⟨fun h => conv _ (h1 h), fun e h h' => conv e (h2 e h h')⟩

/-! ### examples -/

/-- What a new object answers for a section, computed. -/
theorem sound_computed {s : Str} {d : Options} (hs : s ≠ []) (hn : c.sectionNames.length + 3 ≤ n)
    (hd : c.hasSection py!"DEFAULT" = false) (h : (edGet (baseEnv c 0) n s (Obj.fresh baseClass ())).1 = .ok d) :
    Sound (baseEnv c 0) s ∧ Resolved (baseEnv c 0) s d := by
  obtain ⟨h1, h2⟩ := edGet_base (c := c) (l := 0) (n := n) (o := Obj.fresh baseClass ()) (s := s) (by omega) hs
    ⟨by simp [Obj.fresh], .inl rfl⟩ hn (fun hx => by rw [hd] at hx; cases hx)
  rcases sound_or_faults (baseEnv c 0) s with hs | ⟨e, he⟩
  · obtain ⟨d', e', hr⟩ := h1 hs
    rw [h] at e'
    cases e'
    exact ⟨hs, hr⟩
  · rw [h2 e he] at h; cases h

namespace TopExample

/-- Two sections; one file named by an absolute path. -/
def text : Str := py!"[gen-config]\nsupported-config-flags: flags.ini\nconfig-specs: ./sub//specs.ini\nother: x\n[common]\nsupported-systems: systems.ini\n[load-env]\nuse common\nsupported-envs: /abs/envs.ini\nenvironment-specs: ../specs.ini\n"

/-- The directory /t, with all files there, or without flags.ini. -/
def disk (flags : Bool) : FS := fun p =>
  if p = py!"/t/gen-config.ini" then .file text
  else if p = py!"t/gen-config.ini" then .file text
  else if p = py!"/t/flags.ini" then (if flags then .file [] else .absent)
  else if p ∈ [py!"/t/sub/specs.ini", py!"/t/systems.ini", py!"/abs/envs.ini", py!"/t/../specs.ini"] then .file []
  else if p ∈ [py!"t/flags.ini", py!"t/sub/specs.ini", py!"t/systems.ini", py!"t/../specs.ini"] then .file []
  else .absent

/-- What the file contains. -/
def cfg : Cfg where
  sections := [(py!"gen-config", [(py!"supported-config-flags", some py!"flags.ini"),
      (py!"config-specs", some py!"./sub//specs.ini"), (py!"other", some py!"x")]),
    (py!"common", [(py!"supported-systems", some py!"systems.ini")]),
    (py!"load-env", [(py!"use common", none), (py!"supported-envs", some py!"/abs/envs.ini"),
      (py!"environment-specs", some py!"../specs.ini")])]
  commonName := py!"CONFIGPARSERENHANCED_COMMON"

theorem loads (b : Bool) : ((newOn [py!"/t/gen-config.ini"]).configdata (disk b)).1 = .ok cfg := by
  cases b <;> decide +kernel

theorem loads' : ((newOn [py!"t/gen-config.ini"]).configdata (disk true)).1 = .ok cfg := by decide +kernel

/-- The resolved options. -/
def genConfig : Options := [(py!"supported-config-flags", some py!"flags.ini"), (py!"config-specs", some py!"./sub//specs.ini"),
  (py!"other", some py!"x")]

/-- The resolved options. -/
def loadEnv : Options := [(py!"supported-systems", some py!"systems.ini"), (py!"supported-envs", some py!"/abs/envs.ini"),
  (py!"environment-specs", some py!"../specs.ini")]

theorem apart : DefaultApart cfg := fun h => absurd h (by decide +kernel)

theorem sound1 : Sound (baseEnv cfg 0) py!"gen-config" ∧ Resolved (baseEnv cfg 0) py!"gen-config" genConfig :=
  sound_computed (n := 9) (by decide) (by decide) (by decide +kernel) (by decide +kernel)

theorem sound2 : Sound (baseEnv cfg 0) py!"load-env" ∧ Resolved (baseEnv cfg 0) py!"load-env" loadEnv :=
  sound_computed (n := 9) (by decide) (by decide) (by decide +kernel) (by decide +kernel)

theorem sections : ∀ s ∈ genConfigSections, s ∈ cfg.sectionNames ∧ Sound (baseEnv cfg 0) s := by
  intro s hs
  have : s = py!"gen-config" ∨ s = py!"load-env" := by simpa [genConfigSections] using hs
  rcases this with rfl | rfl
  · exact ⟨by decide +kernel, sound1.1⟩
  · exact ⟨by decide +kernel, sound2.1⟩

/-- The options as one table. -/
def table (s : Str) : Options := if s = py!"gen-config" then genConfig else loadEnv

theorem resolved {s : Str} {d : Options} (hs : s ∈ genConfigSections) (h : Resolved (baseEnv cfg 0) s d) : d = table s := by
  have : s = py!"gen-config" ∨ s = py!"load-env" := by simpa [genConfigSections] using hs
  rcases this with rfl | rfl
  · exact resolved_unique h sound1.2
  · exact resolved_unique h sound2.2

theorem names_iff' (fs : FS) (ini : Str) (must : Bool) (keys : List (Str × Str)) (hk : ∀ p ∈ keys, p.1 ∈ genConfigSections) :
    NamesFiles (baseEnv cfg 0) fs ini must keys ↔ ∀ p ∈ keys, (match Dict.get? (table p.1) p.2 with
      | some (some v) => decide (v ≠ []) && (!must || pathExists fs (place ini v))
      | _ => false) = true := by
  have hres : ∀ s ∈ genConfigSections, Resolved (baseEnv cfg 0) s (table s) := by
    intro s hs
    have : s = py!"gen-config" ∨ s = py!"load-env" := by simpa [genConfigSections] using hs
    rcases this with rfl | rfl
    · exact sound1.2
    · exact sound2.2
  constructor
  · intro h p hp
    obtain ⟨d, h1, h2⟩ := h p.1 p.2 hp
    rw [resolved (hk p hp) h1, goodPath_iff] at h2
    obtain ⟨v, h2, h3, h4⟩ := h2
    rw [h2]
    cases must <;> simp_all
  · intro h s k hp
    refine ⟨_, hres s (hk _ hp), ?_⟩
    rw [goodPath_iff]
    have := h (s, k) hp
    dsimp only at this
    split at this
    · rename_i v hv
      refine ⟨v, hv, ?_⟩
      cases must <;> simp_all
    · cases this

theorem fine : NamesFiles (baseEnv cfg 0) (disk true) py!"/t/gen-config.ini" true genConfigFiles :=
  (names_iff' _ _ _ _ (by decide +kernel)).2 (by decide +kernel)

theorem fine' : NamesFiles (baseEnv cfg 0) (disk true) py!"t/gen-config.ini" true genConfigFiles :=
  (names_iff' _ _ _ _ (by decide +kernel)).2 (by decide +kernel)

theorem notFine : ¬ NamesFiles (baseEnv cfg 0) (disk false) py!"/t/gen-config.ini" true genConfigFiles := fun h =>
  absurd ((names_iff' _ _ _ _ (by decide +kernel)).1 h) (by decide +kernel)

end TopExample

section
open TopExample

/-- First flags.ini is not there, then it is, then it is gone again. -/
example : (GCTop.configData 9 (disk false) py!"/t/gen-config.ini" (accessAll 9 py!"/t/gen-config.ini" [disk false, disk true] GCTop.new)).1 =
    .exc .valueError :=
  (C60_gen_config (c := cfg) (.inl ⟨_, rfl⟩) [disk false, disk true] (fun _ h => by cases h; exact loads false) (by decide) apart sections).2 notFine

example := (C60_gen_config (n := 9) (c := cfg) (fs := disk true) (ini := py!"/t/gen-config.ini") (.inl ⟨_, rfl⟩) [disk false, disk true]
  (fun _ h => by cases h; exact loads false) (by decide) apart sections).1 fine

/-- The paths, computed. -/
example : (GCTop.getArgs 9 (disk true) py!"/t/gen-config.ini" id (fun p => if p.2 = py!"config-specs" then some py!"/mine.ini" else none) GCTop.new).1 =
    .ok [py!"/t/flags.ini", py!"/mine.ini", py!"/t/systems.ini", py!"/abs/envs.ini", py!"/t/../specs.ini"] := by decide +kernel

example := (C60_args (n := 9) (c := cfg) (fs := disk true) (ini := py!"/t/gen-config.ini") (.inl ⟨_, rfl⟩) id
  (fun p => if p.2 = py!"config-specs" then some py!"/mine.ini" else none) [disk false] (fun _ h => by cases h; exact loads false) (by decide)
  apart sections).1 fine

/-- All five given, and still ValueError. -/
example := (C60_args (n := 9) (c := cfg) (fs := disk false) (ini := py!"/t/gen-config.ini") (.inl ⟨_, rfl⟩) id
  (fun _ => some py!"/mine.ini") [] (fun _ h => by cases h; exact loads false) (by decide) apart sections).2 notFine

/-- The same file by a relative path: the second access fails, and so does `args`. -/
example : (GCTop.configData 9 (disk true) py!"t/gen-config.ini" GCTop.new).1 = .ok () ∧
    (GCTop.configData 9 (disk true) py!"t/gen-config.ini" (accessAll 9 py!"t/gen-config.ini" [disk true] GCTop.new)).1 = .exc .valueError :=
  C60_drift (c := cfg) (ns := [py!"t", py!"gen-config.ini"]) (vs := [py!"flags.ini"]) (s := py!"gen-config")
    (k := py!"supported-config-flags") (by simp [IsAbs]) ((names_iff ..).2 (by decide +kernel)) loads' (by decide) apart sections fine'
    (by decide +kernel) sound1.2 (v := py!"flags.ini") (by decide +kernel) (by simp [IsAbs]) ((names_iff ..).2 (by decide +kernel))
    (by decide +kernel)

example : (GCTop.getArgs 9 (disk true) py!"t/gen-config.ini" id (fun _ => none) GCTop.new).1 = .exc .valueError := by decide +kernel

/-- A file that is missing at first; a section that is missing; a section with a fault. -/
example : (GCTop.configData 9 (fun p => if p = py!"a" then .file py!"[gen-config]\nuse nowhere\n" else .absent) py!"a" GCTop.new).1 = .exc .keyError ∧
    (GCTop.configData 9 (fun p => if p = py!"a" then .file py!"[gen-config]\nx\n" else .absent) py!"a" GCTop.new).1 = .exc .valueError := by
  decide +kernel

example := (C60_missing_file (n := 9) (ini := py!"/t/gen-config.ini") (fs := disk true) (fs0 := fun _ => .absent) rfl [disk true]).2

example := (C60_load_env (n := 9) (fs := disk false) (ini := py!"/t/gen-config.ini") (c := cfg) id (fun _ => none) (loads false)
  (by decide) apart (fun s hs => sections s (by simp only [loadEnvSections, List.mem_singleton] at hs; subst hs; decide +kernel))).1
  ((names_iff' _ _ _ _ (by decide +kernel)).2 (by decide +kernel))

/-- LoadEnv does not ask whether the files are there. -/
example : leFiles 9 (fun p => if p = py!"d/l.ini" then .file py!"[load-env]\nsupported-systems: s\nsupported-envs: e\nenvironment-specs: /x//y\n" else .absent)
    py!"d/l.ini" id (fun _ => none) = .ok [py!"d/s", py!"d/e", py!"/x/y"] ∧
  leFiles 9 (fun p => if p = py!"l.ini" then .file py!"[load-env]\nsupported-systems: s\nsupported-envs:\nenvironment-specs: /x//y\n" else .absent)
    py!"l.ini" id (fun _ => some py!"f") = .exc .valueError := by decide +kernel

end

end CPE.Props
