import Verif.Proofs.IniCfg
import Verif.Props.Life
/-
Theorems on reading `.ini` texts (C42, C43, C44).
-/
namespace CPE.Props
open Spec
variable {δ ω : Type} {K : Env δ ω} {n : Nat} {f : Full δ ω} {s k : Str}

/-- What the files of a list say; files that cannot be opened say nothing. -/
inductive FilesSay (fs : FS) (ds : List Char) : List Str → List Doc → Prop
  | nil : FilesSay fs ds [] []
  | skip {p ps docs} : fs p = .unreadable → FilesSay fs ds ps docs → FilesSay fs ds (p :: ps) docs
  | read {p ps text doc docs} : fs p = .file text → Says ds text doc → doc.Strict → FilesSay fs ds ps docs →
      FilesSay fs ds (p :: ps) (doc :: docs)

/-- The delimiters are the characters `ds`, none of them blank. -/
structure Delims (f : Full δ ω) (ds : List Char) : Prop where
  eq : f.delimiters = ds.map fun c => [c]
  nonempty : ds ≠ []
  notBlank : ∀ d ∈ ds, ¬ White d

/-- The name of the common section. -/
def common : Str := py!"CONFIGPARSERENHANCED_COMMON"

/-! ### Dicts written in order -/

theorem setAll_fresh {os : List DocOption} (hn : (os.map Prod.fst).Nodup) :
    ∀ {d : Dict Str (Option Str)}, (∀ x ∈ os.map Prod.fst, x ∉ Dict.keys d) → setAll d os = d ++ os.map docValue := by
  induction os with
  | nil => intro d _; simp [setAll]
  | cons o os ih =>
    intro d hd
    rw [List.map_cons, List.nodup_cons] at hn
    change setAll (Dict.set d o.1 (docValue o).2) os = _
    rw [Dict.set_of_get?_none d o.1 _ ((Dict.get?_eq_none_iff _ _).2 (hd _ (List.mem_cons_self ..))), ih hn.2]
    · simp [docValue]
    · intro x hx
      simp only [Dict.keys, List.map_append, List.mem_append, List.map_cons, List.map_nil, List.mem_singleton]
      rintro (h | rfl)
      · exact hd x (List.mem_cons_of_mem _ hx) h
      · exact hn.1 hx

theorem onto_cons_common {x : Str × List DocOption} {doc : Doc} {c : Cfg} (h : x.1 = c.commonName) :
    Doc.onto (x :: doc) c = Doc.onto doc { c with common := setAll c.common x.2 } := by
  unfold Doc.onto; rw [List.foldl_cons, if_pos h]

theorem onto_cons_section {x : Str × List DocOption} {doc : Doc} {c : Cfg} (h : x.1 ≠ c.commonName) :
    Doc.onto (x :: doc) c = Doc.onto doc
      { c with sections := Dict.set c.sections x.1 (setAll ((Dict.get? c.sections x.1).getD []) x.2) } := by
  unfold Doc.onto; rw [List.foldl_cons, if_neg h]

theorem onto_commonName (doc : Doc) : ∀ c : Cfg, (doc.onto c).commonName = c.commonName := by
  induction doc with
  | nil => intro c; rfl
  | cons x doc ih =>
    intro c
    unfold Doc.onto at ih ⊢
    rw [List.foldl_cons, ih]
    split <;> rfl

theorem onto_fresh {doc : Doc} (hst : doc.Strict) : ∀ {c : Cfg}, (∀ x ∈ doc.map Prod.fst, x ∉ Dict.keys c.sections) →
    (doc.onto c).sections = c.sections ++ (doc.filter fun x => x.1 ≠ c.commonName).map fun x => (x.1, x.2.map docValue) := by
  induction doc with
  | nil => intro c _; simp [Doc.onto]
  | cons x doc ih =>
    intro c hc
    have hnd := hst.1
    rw [List.map_cons, List.nodup_cons] at hnd
    have hst' : Doc.Strict doc := ⟨hnd.2, fun y hy => hst.2 y (List.mem_cons_of_mem _ hy)⟩
    by_cases hx : x.1 = c.commonName
    · rw [onto_cons_common hx, ih hst' (by exact fun y hy => hc y (List.mem_cons_of_mem _ hy))]
      rw [List.filter_cons_of_neg (by simpa using hx)]
    · have hget : Dict.get? c.sections x.1 = none := (Dict.get?_eq_none_iff _ _).2 (hc _ (List.mem_cons_self ..))
      rw [onto_cons_section hx, ih hst']
      · dsimp only
        rw [List.filter_cons_of_pos (by simpa using hx), hget, Dict.set_of_get?_none _ _ _ hget, Option.getD_none,
          setAll_fresh (hst.2 x (List.mem_cons_self ..)) (by intro y _ h; cases h)]
        simp
      · intro y hy
        dsimp only
        rw [Dict.mem_keys_set]
        rintro (rfl | h)
        · exact hnd.1 hy
        · exact hc y (List.mem_cons_of_mem _ hy) h

theorem onto_common {doc : Doc} (hst : doc.Strict) : ∀ {c : Cfg}, (doc.onto c).common =
    match doc.find? fun x => x.1 = c.commonName with
    | some x => setAll c.common x.2
    | none => c.common := by
  induction doc with
  | nil => intro c; rfl
  | cons x doc ih =>
    intro c
    have hnd := hst.1
    rw [List.map_cons, List.nodup_cons] at hnd
    have hst' : Doc.Strict doc := ⟨hnd.2, fun y hy => hst.2 y (List.mem_cons_of_mem _ hy)⟩
    by_cases hx : x.1 = c.commonName
    · rw [onto_cons_common hx, ih hst', List.find?_cons_of_pos (by simpa using hx)]
      dsimp only
      have : doc.find? (fun y => decide (y.1 = c.commonName)) = none := by
        rw [List.find?_eq_none]
        intro y hy hyc
        refine hnd.1 (List.mem_map.2 ⟨y, hy, ?_⟩)
        rw [hx]; simpa using hyc
      rw [this]
    · rw [onto_cons_section hx, ih hst', List.find?_cons_of_neg (by simpa using hx)]

theorem onto_empty {doc : Doc} (hst : doc.Strict) : doc.onto { sections := [], commonName := common } = doc.cfg common := by
  have h1 := onto_fresh hst (c := { sections := [], commonName := common }) (by intro x _ h; cases h)
  have h2 := onto_common hst (c := { sections := [], commonName := common })
  have h3 := onto_commonName doc { sections := [], commonName := common }
  dsimp only at h1 h2 h3
  cases hc : doc.onto { sections := [], commonName := common } with
  | mk a b c =>
    rw [hc] at h1 h2 h3
    dsimp only at h1 h2 h3
    subst h1 h2 h3
    unfold Doc.cfg
    congr 1
    · cases hf : doc.find? fun x => x.1 = common with
      | none => rfl
      | some x =>
        have hm := List.mem_of_find?_eq_some hf
        dsimp only
        rw [setAll_fresh (hst.2 x hm) (by intro y _ h; cases h)]
        rfl

/-! ### C42, C43 -/

theorem readFiles_say {fs : FS} {ds : List Char} (hne : ds ≠ []) (hds : ∀ d ∈ ds, ¬ White d) {ps : List Str} {docs : List Doc}
    (h : FilesSay fs ds ps docs) : ∀ {r : Reader}, Reader.Settled commonSectionName r →
    ∃ r', readFiles fs (ds.map fun c => [c]) ps r = (none, r') ∧
      r'.cfg commonSectionName = docs.foldl (fun c doc => doc.onto c) (r.cfg commonSectionName) := by
  induction h with
  | nil => intro r _; exact ⟨r, rfl, rfl⟩
  | skip hp _ ih =>
    intro r hr
    obtain ⟨r', h1, h2⟩ := ih hr
    refine ⟨r', ?_, h2⟩
    rw [readFiles, hp]; exact h1
  | read hp hs hst _ ih =>
    intro r hr
    obtain ⟨r1, a1, a2, a3⟩ := Reader.file_says hne hds hs hst hr
    obtain ⟨r', h1, h2⟩ := ih a2
    refine ⟨r', ?_, ?_⟩
    · rw [readFiles, hp]
      dsimp only
      rw [a1]
      exact h1
    · rw [h2, a3]; rfl

theorem filesSay_isFile {fs : FS} {ds : List Char} {ps : List Str} {docs : List Doc} (h : FilesSay fs ds ps docs) :
    ps.all (fun p => (fs p).isFile) = true := by
  induction h with
  | nil => rfl
  | skip hp _ ih => rw [List.all_cons, ih, hp]; rfl
  | read hp _ _ _ ih => rw [List.all_cons, ih, hp]; rfl

/-- C43: a list of files is read as if each document were written over what the earlier ones gave. -/
theorem C43_files_in_order {fs : FS} {ds : List Char} (hd : Delims f ds) (hc : f.cfg = none) {ps : List Str}
    (hf : f.files = some ps) (hps : ps ≠ []) {docs : List Doc} (h : FilesSay fs ds ps docs) :
    (FOp.configdata.exec K n fs f).1 =
      .ok (.cfg (docs.foldl (fun c doc => doc.onto c) { sections := [], commonName := common })) := by
  obtain ⟨r, h1, h2⟩ := readFiles_say hd.nonempty hd.notBlank h Reader.settled_empty
  have hl : loadFiles fs (some ps) f.delimiters = (.ok (r.cfg commonSectionName), some (r.cfg commonSectionName)) := by
    cases ps with
    | nil => exact absurd rfl hps
    | cons p ps =>
      rw [hd.eq]
      simp only [loadFiles, filesSay_isFile h, Bool.true_eq_false, if_false, h1]
  simp only [FOp.exec, Full.configdata, hc, hf, hl, h2]
  rfl

/-- C42: an object on one file that says `doc` gives the configuration `doc` stands for. -/
theorem C42_text_is_read {fs : FS} {ds : List Char} (hd : Delims f ds) (hc : f.cfg = none) {p : Str} (hf : f.files = some [p])
    {text : Str} (hp : fs p = .file text) {doc : Doc} (h : Says ds text doc) (hst : doc.Strict) :
    (FOp.configdata.exec K n fs f).1 = .ok (.cfg (doc.cfg common)) := by
  rw [C43_files_in_order hd hc hf (by simp) (.read hp h hst .nil), ← onto_empty hst]
  rfl

/-- The document gives option `k` of section `s` the value `v`. -/
def Doc.Gives (doc : Doc) (s k : Str) (v : Option Str) : Prop :=
  ∃ os o, (s, os) ∈ doc ∧ o ∈ os ∧ (docValue o).1 = k ∧ (docValue o).2 = v

/-- The raw value held for option `k` of section `s` itself (or of the common section). -/
def held (c : Cfg) (s k : Str) : Option (Option Str) :=
  if s = c.commonName then Dict.get? c.common k else (Dict.get? c.sections s).bind fun d => Dict.get? d k

theorem setAll_get {os : List DocOption} (hn : (os.map Prod.fst).Nodup) (k : Str) : ∀ d : Dict Str (Option Str),
    (∃ o ∈ os, (docValue o).1 = k ∧ Dict.get? (setAll d os) k = some (docValue o).2) ∨
    ((∀ o ∈ os, (docValue o).1 ≠ k) ∧ Dict.get? (setAll d os) k = Dict.get? d k) := by
  induction os with
  | nil => intro d; exact .inr ⟨by simp, rfl⟩
  | cons o os ih =>
    intro d
    rw [List.map_cons, List.nodup_cons] at hn
    change (∃ o' ∈ o :: os, _ ∧ Dict.get? (setAll (Dict.set d o.1 (docValue o).2) os) k = _) ∨
      (_ ∧ Dict.get? (setAll (Dict.set d o.1 (docValue o).2) os) k = _)
    rcases ih hn.2 (Dict.set d o.1 (docValue o).2) with ⟨o', h1, h2, h3⟩ | ⟨h1, h2⟩
    · exact .inl ⟨o', List.mem_cons_of_mem _ h1, h2, h3⟩
    · by_cases hk : k = o.1
      · subst hk
        exact .inl ⟨o, List.mem_cons_self .., rfl, by rw [h2, Dict.get?_set_self]⟩
      · refine .inr ⟨fun o' ho' => ?_, by rw [h2, Dict.get?_set_ne _ _ hk]⟩
        rcases List.mem_cons.1 ho' with rfl | ho'
        · exact fun h => hk h.symm
        · exact h1 o' ho'

theorem onto_held {doc : Doc} (hst : doc.Strict) (s k : Str) : ∀ c : Cfg,
    (∃ v, Doc.Gives doc s k v ∧ held (doc.onto c) s k = some v) ∨
    ((∀ v, ¬ Doc.Gives doc s k v) ∧ held (doc.onto c) s k = held c s k) := by
  induction doc with
  | nil => intro c; exact .inr ⟨(by rintro v ⟨os, o, h, _⟩; cases h), rfl⟩
  | cons x doc ih =>
    intro c
    obtain ⟨t, os⟩ := x
    have hnd := hst.1
    rw [List.map_cons, List.nodup_cons] at hnd
    have hst' : Doc.Strict doc := ⟨hnd.2, fun y hy => hst.2 y (List.mem_cons_of_mem _ hy)⟩
    have hos := hst.2 _ (List.mem_cons_self ..)
    let c1 : Cfg := if t = c.commonName then { c with common := setAll c.common os }
      else { c with sections := Dict.set c.sections t (setAll ((Dict.get? c.sections t).getD []) os) }
    have e : Doc.onto ((t, os) :: doc) c = Doc.onto doc c1 := rfl
    rw [e]
    have hc1 : c1.commonName = c.commonName := by simp only [c1]; split <;> rfl
    rcases ih hst' c1 with ⟨v, ⟨os', o, g1, g2⟩, h2⟩ | ⟨h1, h2⟩
    · exact .inl ⟨v, ⟨os', o, List.mem_cons_of_mem _ g1, g2⟩, h2⟩
    · rw [h2]
      by_cases hts : t = s
      · subst hts
        have hh : held c1 t k = Dict.get? (setAll (if t = c.commonName then c.common else (Dict.get? c.sections t).getD []) os) k := by
          unfold held
          rw [hc1]
          by_cases htc : t = c.commonName
          · simp only [c1, if_pos htc]
          · simp only [c1, if_neg htc, Dict.get?_set_self, Option.bind_some]
        rcases setAll_get hos k (if t = c.commonName then c.common else (Dict.get? c.sections t).getD []) with
          ⟨o, g1, g2, g3⟩ | ⟨g1, g2⟩
        · exact .inl ⟨_, ⟨os, o, List.mem_cons_self .., g1, g2, rfl⟩, by rw [hh, g3]⟩
        · refine .inr ⟨?_, ?_⟩
          · rintro v ⟨os', o, b1, b2, b3, b4⟩
            rcases List.mem_cons.1 b1 with h | h
            · cases h; exact g1 o b2 b3
            · exact h1 v ⟨os', o, h, b2, b3, b4⟩
          · rw [hh, g2]
            unfold held
            split
            · rfl
            · cases Dict.get? c.sections t <;> rfl
      · refine .inr ⟨?_, ?_⟩
        · rintro v ⟨os', o, b1, b2⟩
          rcases List.mem_cons.1 b1 with h | h
          · cases h; exact hts rfl
          · exact h1 v ⟨os', o, h, b2⟩
        · unfold held
          rw [hc1]
          by_cases hsc : s = c.commonName
          · have : t ≠ c.commonName := fun h => hts (h.trans hsc.symm)
            simp only [if_pos hsc, c1, if_neg this]
          · simp only [if_neg hsc]
            by_cases htc : t = c.commonName
            · simp only [c1, if_pos htc]
            · simp only [c1, if_neg htc]
              rw [Dict.get?_set_ne _ _ (Ne.symm hts)]

theorem gives_unique {doc : Doc} (hst : doc.Strict) {v v' : Option Str} (h : Doc.Gives doc s k v) (h' : Doc.Gives doc s k v') :
    v = v' := by
  obtain ⟨os, o, a1, a2, a3, a4⟩ := h
  obtain ⟨os', o', b1, b2, b3, b4⟩ := h'
  have nodup_fst : ∀ {α : Type} {l : List (Str × α)} {a b : Str × α}, (l.map Prod.fst).Nodup → a ∈ l → b ∈ l → a.1 = b.1 →
      a = b := by
    intro α l
    induction l with
    | nil => intro a b _ h; cases h
    | cons x l ih =>
      intro a b hn ha hb hab
      rw [List.map_cons, List.nodup_cons] at hn
      rcases List.mem_cons.1 ha with rfl | ha <;> rcases List.mem_cons.1 hb with rfl | hb
      · rfl
      · exact absurd (List.mem_map.2 ⟨b, hb, hab.symm⟩) hn.1
      · exact absurd (List.mem_map.2 ⟨a, by assumption, hab⟩) hn.1
      · exact ih hn.2 ha hb hab
  have e1 := nodup_fst hst.1 a1 b1 rfl
  cases e1
  have e2 := nodup_fst (hst.2 _ a1) a2 b2 (a3.trans b3.symm)
  cases e2
  exact a4.symm.trans b4

/-- C43: the value of an option is the one given by the last file that gives it any. -/
theorem C43_last_file_wins {docs : List Doc} (hst : ∀ doc ∈ docs, doc.Strict) (v : Option Str) :
    held (docs.foldl (fun c doc => doc.onto c) { sections := [], commonName := common }) s k = some v ↔
      ∃ d1 doc d2, docs = d1 ++ doc :: d2 ∧ Doc.Gives doc s k v ∧ ∀ d ∈ d2, ∀ v', ¬ Doc.Gives d s k v' := by
  have key : ∀ (rev : List Doc), (∀ doc ∈ rev, doc.Strict) →
      (held (rev.reverse.foldl (fun c doc => doc.onto c) { sections := [], commonName := common }) s k = some v ↔
      ∃ d1 doc d2, rev.reverse = d1 ++ doc :: d2 ∧ Doc.Gives doc s k v ∧ ∀ d ∈ d2, ∀ v', ¬ Doc.Gives d s k v') := by
    intro rev
    induction rev with
    | nil =>
      intro _
      constructor
      · intro h
        have : held { sections := [], commonName := common } s k = none := by
          unfold held; split <;> rfl
        rw [List.reverse_nil, List.foldl_nil, this] at h
        cases h
      · rintro ⟨d1, doc, d2, h, _⟩
        cases d1 <;> cases h
    | cons x rev ih =>
      intro hst
      have ih := ih fun d hd => hst d (List.mem_cons_of_mem _ hd)
      have hx := hst x (List.mem_cons_self ..)
      rw [List.reverse_cons, List.foldl_append, List.foldl_cons, List.foldl_nil]
      rcases onto_held hx s k (rev.reverse.foldl (fun c doc => Doc.onto doc c) { sections := [], commonName := common }) with
        ⟨v', h1, h2⟩ | ⟨h1, h2⟩
      · rw [h2]
        constructor
        · intro h
          cases h
          exact ⟨rev.reverse, x, [], rfl, h1, by intro d hd; cases hd⟩
        · rintro ⟨d1, doc, d2, he, hg, hl⟩
          rcases List.eq_nil_or_concat d2 with rfl | ⟨d2', y, rfl⟩
          · have := List.append_inj' he rfl
            cases this.2
            rw [gives_unique hx h1 hg]
          · have he' : rev.reverse ++ [x] = (d1 ++ doc :: d2') ++ [y] := by rw [he]; simp
            have := List.append_inj' he' rfl
            cases this.2
            exact absurd h1 (hl x (by simp) v')
      · rw [h2, ih]
        constructor
        · rintro ⟨d1, doc, d2, he, hg, hl⟩
          refine ⟨d1, doc, d2 ++ [x], by rw [he]; simp, hg, ?_⟩
          intro d hd
          rcases List.mem_append.1 hd with hd | hd
          · exact hl d hd
          · cases List.mem_singleton.1 hd; exact h1
        · rintro ⟨d1, doc, d2, he, hg, hl⟩
          rcases List.eq_nil_or_concat d2 with rfl | ⟨d2', y, rfl⟩
          · have := List.append_inj' he rfl
            cases this.2
            exact absurd hg (h1 v)
          · have he' : rev.reverse ++ [x] = (d1 ++ doc :: d2') ++ [y] := by rw [he]; simp
            have := List.append_inj' he' rfl
            exact ⟨d1, doc, d2', this.1, hg, fun d hd => hl d (by simp [hd])⟩
  have := key docs.reverse (fun d hd => hst d (by simpa using hd))
  rwa [List.reverse_reverse] at this

/-- C43: sections are listed in the order in which they first appear. -/
theorem C43_section_order (docs : List Doc) :
    (docs.foldl (fun c doc => Doc.onto doc c) ({ sections := [], commonName := common } : Cfg)).sectionNames =
      ((docs.flatten.map Prod.fst).filter (· ≠ common)).foldl (fun l t => if t ∈ l then l else l ++ [t]) [] := by
  have key : ∀ (doc : Doc) (c : Cfg), c.commonName = common → (doc.onto c).sectionNames =
      ((doc.map Prod.fst).filter (· ≠ common)).foldl (fun l t => if t ∈ l then l else l ++ [t]) c.sectionNames := by
    intro doc
    induction doc with
    | nil => intro c _; rfl
    | cons x doc ih =>
      intro c hc
      rw [List.map_cons]
      by_cases hx : x.1 = c.commonName
      · rw [onto_cons_common hx, ih _ (by exact hc), List.filter_cons_of_neg (by rw [← hc]; simpa using hx)]
        rfl
      · rw [onto_cons_section hx, ih _ (by exact hc), List.filter_cons_of_pos (by rw [← hc]; simpa using hx), List.foldl_cons]
        congr 1
        refine (Dict.keys_set c.sections x.1 _).trans ?_
        unfold Cfg.sectionNames
        by_cases hm : x.1 ∈ Dict.keys c.sections
        · rw [if_pos hm, if_pos hm]
        · rw [if_neg hm, if_neg hm]
  have : ∀ (docs : List Doc) (c : Cfg), c.commonName = common →
      (docs.foldl (fun c doc => doc.onto c) c).sectionNames =
      ((docs.flatten.map Prod.fst).filter (· ≠ common)).foldl (fun l t => if t ∈ l then l else l ++ [t]) c.sectionNames := by
    intro docs
    induction docs with
    | nil => intro c _; rfl
    | cons d docs ih =>
      intro c hc
      rw [List.foldl_cons, ih _ (by rw [onto_commonName]; exact hc), key d c hc, List.flatten_cons, List.map_append,
        List.filter_append, List.foldl_append]
  exact this docs _ rfl

/-! ### C44 texts that are refused -/

/-- The first lines of a file, well formed, followed by a line that is not, and then by anything. -/
structure Upto (text : Str) (good : List Str) (bad : Str) : Prop where
  goodLines : ∀ l ∈ good, OneLine l
  badLine : OneLine bad
  lines : ∃ rest, (∀ l ∈ rest, OneLine l) ∧ LinesOf (good ++ bad :: rest) text

theorem upto_lines {text bad : Str} {good : List Str} (h : Upto text good bad) : ∃ rest,
    linesOf (universalNewlines text) = good ++ bad :: rest := by
  obtain ⟨rest, h1, h2⟩ := h.lines
  refine ⟨rest, linesOf_text h2 ?_⟩
  intro l hl
  rcases List.mem_append.1 hl with hl | hl
  · exact h.goodLines l hl
  · rcases List.mem_cons.1 hl with rfl | hl
    · exact h.badLine
    · exact h1 l hl

/-- Loading one file whose reading stops with `e`. -/
theorem load_stops {fs : FS} (hc : f.cfg = none) {p : Str} (hf : f.files = some [p]) {text : Str} (hp : fs p = .file text)
    {e : PyExc} {r : Reader} (hr : Reader.file commonSectionName f.delimiters text {} = (some e, r)) :
    (FOp.configdata.exec K n fs f).1 = .exc e := by
  have h1 : readFiles fs f.delimiters [p] {} = (some e, r) := by
    rw [readFiles, hp]; dsimp only; rw [hr]
  have hl : (loadFiles fs (some [p]) f.delimiters).1 = .error e := by
    have hall : [p].all (fun p => (fs p).isFile) = true := by simp [hp, FNode.isFile]
    simp only [loadFiles, hall, Bool.true_eq_false, if_false, h1]
    split <;> rfl
  simp only [FOp.exec, Full.configdata, hc, hf, hl]
  rfl

theorem file_stops {D : List Str} {text bad : Str} {good rest : List Str} {r1 r2 : Reader} {e : PyExc}
    (hl : linesOf (universalNewlines text) = good ++ bad :: rest)
    (h1 : Reader.lines commonSectionName D good {} = (none, r1))
    (h2 : r1.line commonSectionName D bad = (some e, r2)) :
    ∃ r, Reader.file commonSectionName D text {} = (some e, r) := by
  have : Reader.lines commonSectionName D (linesOf (universalNewlines text)) {} = (some e, r2) := by
    rw [hl, Reader.lines_append, h1]
    dsimp only
    rw [Reader.lines, h2]
  refine ⟨_, Prod.ext ?_ rfl⟩
  unfold Reader.file
  dsimp only
  rw [show ({ sections := ({} : Reader).sections, common := ({} : Reader).common } : Reader) = {} from rfl, this]

/-- C44: a section header repeated in the same file raises DuplicateSectionError. -/
theorem C44_duplicate_section {fs : FS} {ds : List Char} (hd : Delims f ds) (hc : f.cfg = none) {p : Str}
    (hf : f.files = some [p]) {text : Str} (hp : fs p = .file text) {skip ls : List Str} {doc : Doc} {h : Str}
    (hskip : ∀ x ∈ skip, SkipLine x) (hdoc : SectionsText ds ls doc) (hst : doc.Strict) (hs : s ∈ doc.map Prod.fst)
    (hcommon : s ≠ common) (hh : HeaderLine s h) (ht : Upto text (skip ++ ls) h) :
    (FOp.configdata.exec K n fs f).1 = .exc .duplicateSection := by
  obtain ⟨rest, hl⟩ := upto_lines ht
  obtain ⟨r, r1, r2⟩ := Reader.lines_doc (cn := commonSectionName) hd.nonempty hd.notBlank hdoc {} rfl hst
    (by intro x hx; cases hx)
  have hmem := r2.names s hs hcommon
  have hsec : Dict.mem r.sections s = true := by
    rw [r2.data.sections]
    have : ∀ (doc : Doc) (q : Reader), (s ∈ doc.map Prod.fst ∨ Dict.mem q.sections s = true) →
        Dict.mem (Reader.putAll commonSectionName doc q).sections s = true := by
      intro doc
      induction doc with
      | nil => rintro q (h | h); cases h; exact h
      | cons x doc ih =>
        intro q hq
        refine ih _ ?_
        rcases hq with hq | hq
        · rcases List.mem_cons.1 hq with rfl | hq
          · right
            rcases Reader.putCur_in (cn := commonSectionName) (r := q) x.1 _ with h | h
            · exact absurd h hcommon
            · exact h
          · exact .inl hq
        · right
          change Dict.mem (q.putCur commonSectionName x.1 _).sections s = true
          unfold Reader.putCur
          split
          · exact hq
          · rw [Dict.mem_iff, Dict.mem_keys_set]; exact .inr ((Dict.mem_iff _ _).1 hq)
    exact this doc {} (.inl hs)
  have h2 : r.line commonSectionName (ds.map fun c => [c]) h = (some .duplicateSection, { r with indent := 0 }) := by
    rw [Reader.line_header _ hh, Reader.header]
    rw [if_pos (show Dict.mem ({ r with indent := 0 } : Reader).sections s = true from hsec), if_pos hmem]
  obtain ⟨q, hq⟩ := file_stops (r1 := r) hl (by
    rw [Reader.lines_append, Reader.lines_skip _ hskip {} (by intro s k h; cases h)]; exact r1) h2
  rw [← hd.eq] at hq
  exact load_stops hc hf hp hq

/-- The lines of a file up to some point in the body of section `s`, indented by `i`, whose options so far are `os`. -/
structure InSection (ds : List Char) (lines : List Str) (doc : Doc) (s : Str) (i : Nat) (os : List DocOption) : Prop where
  parts : ∃ skip ls h skip' ls', lines = skip ++ (ls ++ (h :: skip' ++ ls')) ∧ (∀ x ∈ skip, SkipLine x) ∧
    SectionsText ds ls doc ∧ HeaderLine s h ∧ (∀ x ∈ skip', SkipLine x) ∧ BodyText ds i ls' os
  strict : Doc.Strict (doc ++ [(s, os)])

theorem bodyText_keys {ds : List Char} {i : Nat} {ls : List Str} {os : List DocOption} (h : BodyText ds i ls os) :
    ∀ o ∈ os, o.1 ≠ [] := by
  induction h with
  | nil => intro o ho; cases ho
  | cons ho _ ih =>
    intro o hm
    rcases List.mem_cons.1 hm with rfl | hm
    · cases ho with
      | value h _ => cases h with | value _ _ h => exact h.nonempty
      | bare h _ => cases h with | bare _ _ h => exact h.nonempty
    · exact ih o hm

theorem inSection_read {ds : List Char} (hne : ds ≠ []) (hds : ∀ d ∈ ds, ¬ White d) {lines : List Str} {doc : Doc} {i : Nat}
    {os : List DocOption} (h : InSection ds lines doc s i os) : ∃ r, Reader.lines commonSectionName (ds.map fun c => [c]) lines {} =
      (none, r) ∧ r.cursect = some s ∧ (∀ o ∈ os, (s, some o.1) ∈ r.added) ∧
      (∀ o, os.getLast? = some o → r.indent = i ∧ r.optname = some o.1 ∧ o.1 ≠ [] ∧
        Dict.get? (r.cur commonSectionName s) o.1 = some o.2) ∧ r.bad = false ∧
      Reader.Same (Reader.putAll commonSectionName (doc ++ [(s, os)]) {}) r ∧ (s, some []) ∉ r.added ∧
      (∀ x ∈ r.added, x.1 ∈ doc.map Prod.fst ∨ x = (s, none) ∨ ∃ o ∈ os, x = (s, some o.1)) ∧
      Dict.mem r.sections commonSectionName = false ∧ (os = [] → r.pending = none) := by
  obtain ⟨skip, ls, hd, skip', ls', rfl, h1, h2, h3, h4, h5⟩ := h.parts
  have hst1 : Doc.Strict doc := by
    refine ⟨?_, fun x hx => h.strict.2 x (List.mem_append_left _ hx)⟩
    have := h.strict.1
    rw [List.map_append] at this
    exact (List.nodup_append.1 this).1
  have hos : (os.map Prod.fst).Nodup := h.strict.2 (s, os) (List.mem_append_right _ (List.mem_cons_self ..))
  have hns : s ∉ doc.map Prod.fst := by
    have := h.strict.1
    rw [List.map_append] at this
    intro hm
    exact (List.nodup_append.1 this).2.2 s hm s (List.mem_cons_self ..) rfl
  obtain ⟨r1, a1, a2⟩ := Reader.lines_doc (cn := commonSectionName) hne hds h2 {} rfl hst1 (by intro x hx; cases hx)
  have hnew : ∀ x ∈ r1.added, x.1 ≠ s := by
    intro x hx he
    rcases a2.added x hx with h | h
    · cases h
    · exact hns (he ▸ h)
  obtain ⟨r, b1, b2, b3, b4, b5, _, _, b8, b9, b10⟩ := Reader.lines_section (cn := commonSectionName) hne hds h3 h4 h5 r1
    (by rw [a2.data.sections]; exact Reader.putAll_noCommon doc rfl) hos (fun hm => hnew _ hm rfl)
    (fun o _ hm => hnew _ hm rfl)
  have hno : Dict.mem r1.sections commonSectionName = false := by rw [a2.data.sections]; exact Reader.putAll_noCommon doc rfl
  refine ⟨r, ?_, b4, b8, ?_, ?_, ?_, ?_, ?_, by rw [b2.sections]; exact Reader.putCur_common hno _ _, b10⟩
  · rw [Reader.lines_append, Reader.lines_skip _ h1 {} (by intro s k h; cases h)]
    dsimp only
    rw [Reader.lines_append, a1]
    exact b1
  · intro o ho
    obtain ⟨c1, c2, c3⟩ := b9 o ho
    refine ⟨c1, c2, c3, ?_⟩
    rw [b2.cur, Reader.cur_putCur]
    have key : ∀ (os : List DocOption) (d : Dict Str RawLines), os.getLast? = some o →
        Dict.get? (Reader.rawSet d os) o.1 = some o.2 := by
      intro os
      induction os with
      | nil => intro d h; cases h
      | cons x os ih =>
        intro d h
        cases os with
        | nil => cases h; exact Dict.get?_set_self _ _ _
        | cons y os => exact ih _ h
    exact key os _ ho
  · rw [b3, a2.bad]
  · unfold Reader.putAll
    rw [List.foldl_append]
    refine Reader.Same.trans ?_ b2
    change Reader.Same ((Reader.putAll commonSectionName doc {}).putCur commonSectionName s
      (Reader.rawSet ((Reader.putAll commonSectionName doc {}).cur commonSectionName s) os)) _
    rw [← a2.data.cur]
    exact a2.data.putCur _ _
  · intro hm
    rcases b5 _ hm with h | h | ⟨o, ho, h⟩
    · exact hnew _ h rfl
    · cases h
    · injection h with _ h
      injection h with h
      exact bodyText_keys h5 o ho h.symm
  · intro x hx
    rcases b5 _ hx with h | h
    · rcases a2.added x h with h | h
      · cases h
      · exact .inl h
    · exact .inr h

/-- C44: a key repeated in the same section of a file raises DuplicateOptionError (for a line that is not a continuation:
not indented deeper than the options before it). -/
theorem C44_duplicate_option {fs : FS} {ds : List Char} (hd : Delims f ds) (hc : f.cfg = none) {p : Str}
    (hf : f.files = some [p]) {text : Str} (hp : fs p = .file text) {lines : List Str} {doc : Doc} {i j : Nat}
    {os : List DocOption} (hin : InSection ds lines doc s i os) (hk : k ∈ os.map Prod.fst) {l : Str} {v : Option Str}
    (hl : OptionLine ds j l k v) (hj : j ≤ i) (ht : Upto text lines l) :
    (FOp.configdata.exec K n fs f).1 = .exc .duplicateOption := by
  obtain ⟨rest, hlines⟩ := upto_lines ht
  obtain ⟨r, r1, r2, r3, r4, _⟩ := inSection_read hd.nonempty hd.notBlank hin
  have hi : r.indent = i := by
    cases hg : os.getLast? with
    | none => rw [List.getLast?_eq_none_iff] at hg; subst hg; cases hk
    | some o => exact (r4 o hg).1
  have h2 := Reader.line_option (cn := commonSectionName) hd.nonempty hd.notBlank hl r r2 (.inr (by omega))
  obtain ⟨o, ho, rfl⟩ := List.mem_map.1 hk
  rw [if_pos (r3 o ho)] at h2
  obtain ⟨q, hq⟩ := file_stops hlines r1 h2
  rw [← hd.eq] at hq
  exact load_stops hc hf hp hq

/-- C44: text before the first section header raises MissingSectionHeaderError. -/
theorem C44_missing_header {fs : FS} (hc : f.cfg = none) {p : Str} (hf : f.files = some [p]) {text : Str}
    (hp : fs p = .file text) {skip : List Str} (hskip : ∀ x ∈ skip, SkipLine x) {w t e : Str} (hw : Blanks w) (hne : t ≠ [])
    (htight : Tight t) (hfirst : ∀ c, t.head? = some c → c ≠ '#' ∧ c ≠ ';' ∧ c ≠ '[') (he : Blanks e)
    (ht : Upto text skip (w ++ t ++ e)) :
    (FOp.configdata.exec K n fs f).1 = .exc .missingSectionHeader := by
  obtain ⟨rest, hl⟩ := upto_lines ht
  have h2 := Reader.line_text (cn := commonSectionName) f.delimiters hw hne htight
    (fun c h => ⟨(hfirst c h).1, (hfirst c h).2.1⟩) he {}
  rw [sectionHeader_other fun h => (hfirst _ h).2.2 rfl] at h2
  have hpend : (if ({} : Reader).indent < w.length then ({} : Reader).pending else none) = none := by split <;> rfl
  rw [hpend] at h2
  obtain ⟨q, hq⟩ := file_stops hl (Reader.lines_skip _ hskip {} (by intro s k h; cases h)) h2
  exact load_stops hc hf hp hq

/-- C44: a deeper indented line after an option without delimiter raises AttributeError. -/
theorem C44_continued_bare_option {fs : FS} {ds : List Char} (hd : Delims f ds) (hc : f.cfg = none) {p : Str}
    (hf : f.files = some [p]) {text : Str} (hp : fs p = .file text) {lines : List Str} {doc : Doc} {i : Nat}
    {os : List DocOption} (hin : InSection ds lines doc s i (os ++ [(k, none)])) {w t e : Str} (hw : Blanks w)
    (hlt : i < w.length) (hne : t ≠ []) (htight : Tight t) (hfirst : ∀ c, t.head? = some c → c ≠ '#' ∧ c ≠ ';')
    (he : Blanks e) (ht : Upto text lines (w ++ t ++ e)) :
    (FOp.configdata.exec K n fs f).1 = .exc .attributeError := by
  obtain ⟨rest, hlines⟩ := upto_lines ht
  obtain ⟨r, r1, r2, _, r4, _⟩ := inSection_read hd.nonempty hd.notBlank hin
  obtain ⟨c1, c2, c3, c4⟩ := r4 (k, none) (by simp)
  have h2 := Reader.line_text (cn := commonSectionName) (ds.map fun c => [c]) hw hne htight hfirst he r
  have hpend : r.pending = some (s, k) := by
    unfold Reader.pending; rw [r2, c2]; dsimp only; rw [if_neg c3]
  rw [if_pos (by rw [c1]; exact hlt), hpend] at h2
  dsimp only at h2
  rw [show Dict.get? (Reader.cur commonSectionName r s) k = some none from c4] at h2
  obtain ⟨q, hq⟩ := file_stops hlines r1 h2
  rw [← hd.eq] at hq
  exact load_stops hc hf hp hq

/-- An option line without a key: a delimiter comes first. -/
structure KeylessLine (ds : List Char) (l w : Str) : Prop where
  parts : ∃ d t e, l = w ++ d :: t ++ e ∧ d ∈ ds ∧ d ≠ '#' ∧ d ≠ ';' ∧ d ≠ '[' ∧ Tight (d :: t) ∧ OneLine t ∧ Blanks e
  indent : Blanks w

theorem KeylessLine.oneLine {ds : List Char} (hds : ∀ d ∈ ds, ¬ White d) {l w : Str} (h : KeylessLine ds l w) : OneLine l := by
  obtain ⟨⟨d, t, e, rfl, hmem, _, _, _, _, hone, he⟩, hw⟩ := h
  rw [Reader.oneLine_append, Reader.oneLine_append, Reader.oneLine_cons]
  refine ⟨⟨Reader.Blanks.oneLine hw, ⟨?_, ?_⟩, hone⟩, Reader.Blanks.oneLine he⟩ <;> rintro rfl <;>
    exact hds _ hmem ((isSpace_iff _).1 (by decide))

theorem keyless_read {ds : List Char} (hd : Delims f ds) {lines : List Str} {doc : Doc} {i : Nat}
    {os : List DocOption} (hin : InSection ds lines doc s i os) {l w : Str} (hl : KeylessLine ds l w)
    (hi : os ≠ [] → w.length ≤ i) : ∃ q, Reader.lines commonSectionName (ds.map fun c => [c]) (lines ++ [l]) {} = (none, q) ∧
      q.bad = true ∧ q.cursect = some s ∧ q.pending = none ∧ (s = commonSectionName ∨ Dict.mem q.sections s = true) ∧
      Dict.mem q.sections commonSectionName = false ∧
      (∀ x ∈ q.added, x.1 ∈ doc.map Prod.fst ∨ x = (s, none) ∨ (∃ o ∈ os, x = (s, some o.1)) ∨ x = (s, some [])) := by
  obtain ⟨⟨d, t, e, rfl, hmem, hd1, hd2, hd3, htight, hone, he⟩, hw⟩ := hl
  obtain ⟨r, r1, r2, r3, r4, r5, r6, r7, r8, r9, r10⟩ := inSection_read hd.nonempty hd.notBlank hin
  have h2 := Reader.line_text (cn := commonSectionName) (ds.map fun c => [c]) hw (by simp) htight
    (fun c h => by cases h; exact ⟨hd1, hd2⟩) he r
  have hpend : (if r.indent < w.length then r.pending else none) = none := by
    cases hg : os.getLast? with
    | none =>
      rw [List.getLast?_eq_none_iff] at hg
      rw [r10 hg]; split <;> rfl
    | some o =>
      have := hi (by rintro rfl; cases hg)
      rw [if_neg (by rw [(r4 o hg).1]; omega)]
  have hsplit : splitOption (ds.map fun c => [c]) (d :: t) = ([], some (lstripBy isSpace t)) := by
    have := blanksDelim_at (ds := ds) hd.notBlank hmem t (a := []) (by intro c hc; cases hc)
    rw [List.nil_append] at this
    rw [splitOption.eq_def, this]
  rw [hpend, sectionHeader_other (by simp [hd3]), r2] at h2
  dsimp only at h2
  unfold Reader.option at h2
  rw [Reader.delimPatterns_map hd.nonempty, hsplit] at h2
  dsimp only at h2
  rw [if_pos rfl, show rstrip [] = [] from rfl, if_neg (show ¬ (s, some []) ∈ r.added from r7)] at h2
  have fin : ∀ (R : Reader) (D : Dict Str RawLines), r.line commonSectionName (ds.map fun c => [c]) (w ++ d :: t ++ e) =
      (none, R.putCur commonSectionName s D) → R.bad = true → R.cursect = some s → R.optname = some [] →
      R.added = (s, some []) :: r.added → R.sections = r.sections →
      ∃ q, Reader.lines commonSectionName (ds.map fun c => [c]) (lines ++ [w ++ d :: t ++ e]) {} = (none, q) ∧
        q.bad = true ∧ q.cursect = some s ∧ q.pending = none ∧ (s = commonSectionName ∨ Dict.mem q.sections s = true) ∧
        Dict.mem q.sections commonSectionName = false ∧
        (∀ x ∈ q.added, x.1 ∈ doc.map Prod.fst ∨ x = (s, none) ∨ (∃ o ∈ os, x = (s, some o.1)) ∨ x = (s, some [])) := by
    intro R D h g1 g2 g3 g4 g5
    refine ⟨R.putCur commonSectionName s D, ?_, ?_, ?_, ?_, Reader.putCur_in _ _, Reader.putCur_common (by rw [g5]; exact r9) _ _, ?_⟩
    · rw [Reader.lines_append, r1]
      dsimp only
      rw [Reader.lines, h]
      dsimp only [Reader.lines]
    · rw [Reader.putCur_bad]; exact g1
    · rw [Reader.putCur_cursect]; exact g2
    · rw [Reader.putCur_pending]; unfold Reader.pending; rw [g2, g3]; rfl
    · intro x hx
      rw [Reader.putCur_added, g4] at hx
      rcases List.mem_cons.1 hx with rfl | hx
      · exact .inr (.inr (.inr rfl))
      · rcases r8 x hx with h | h | h
        · exact .inl h
        · exact .inr (.inl h)
        · exact .inr (.inr (.inl h))
  exact fin _ _ h2 rfl rfl rfl rfl rfl

theorem file_bad {D : List Str} {text : Str} {r : Reader}
    (h : Reader.lines commonSectionName D (linesOf (universalNewlines text)) {} = (none, r)) (hb : r.bad = true) :
    ∃ r, Reader.file commonSectionName D text {} = (some .parsingError, r) := by
  refine ⟨_, Prod.ext ?_ rfl⟩
  unfold Reader.file
  dsimp only
  rw [show ({ sections := ({} : Reader).sections, common := ({} : Reader).common } : Reader) = {} from rfl, h]
  dsimp only
  rw [if_pos hb]

/-- C44: an option line without a key (a delimiter first) in a text that is well formed otherwise: the text is read to
the end, and then ParsingError is raised. -/
theorem C44_empty_key {fs : FS} {ds : List Char} (hd : Delims f ds) (hc : f.cfg = none) {p : Str}
    (hf : f.files = some [p]) {text : Str} (hp : fs p = .file text) {lines : List Str} {doc : Doc} {i : Nat}
    {os : List DocOption} (hin : InSection ds lines doc s i os) (hall : ∀ l ∈ lines, OneLine l)
    {l w : Str} (hl : KeylessLine ds l w) (hi : os ≠ [] → w.length ≤ i)
    {skip more later : List Str} {j : Nat} {os' : List DocOption} {doc' : Doc} (hskip : ∀ x ∈ skip, SkipLine x)
    (hmore : BodyText ds j more os') (hlater : SectionsText ds later doc')
    (hst : Doc.Strict (doc ++ (s, os ++ os') :: doc')) (ht : LinesOf (lines ++ [l] ++ skip ++ more ++ later) text) :
    (FOp.configdata.exec K n fs f).1 = .exc .parsingError := by
  have hlines : linesOf (universalNewlines text) = lines ++ [l] ++ skip ++ more ++ later := by
    refine linesOf_text ht fun x hx => ?_
    simp only [List.mem_append, List.mem_singleton] at hx
    rcases hx with (((hx | rfl) | hx) | hx) | hx
    · exact hall x hx
    · exact hl.oneLine hd.notBlank
    · exact Reader.SkipLine.oneLine (hskip x hx)
    · exact Reader.BodyText.oneLine hd.notBlank hmore x hx
    · exact Reader.SectionsText.oneLine hd.notBlank hlater x hx
  obtain ⟨q, q1, q2, q3, q4, q5, q6, q7⟩ := keyless_read hd hin hl hi
  have hnames := hst.1
  rw [List.map_append, List.map_cons] at hnames
  obtain ⟨n1, n2, n3⟩ := List.nodup_append.1 hnames
  rw [List.nodup_cons] at n2
  have hkeys : ((os ++ os').map Prod.fst).Nodup := hst.2 (s, os ++ os') (List.mem_append_right _ (List.mem_cons_self ..))
  rw [List.map_append] at hkeys
  obtain ⟨k1, k2, k3⟩ := List.nodup_append.1 hkeys
  obtain ⟨q', b1, b2⟩ := Reader.lines_body (cn := commonSectionName) hd.nonempty hd.notBlank hmore q q3 (.inl q4) q5 k2 (by
    intro o ho hm
    rcases q7 _ hm with h | h | ⟨o', ho', h⟩ | h
    · exact n3 s h s (List.mem_cons_self ..) rfl
    · cases h
    · simp only [Prod.mk.injEq, Option.some.injEq, true_and] at h
      exact k3 o'.1 (List.mem_map.2 ⟨o', ho', rfl⟩) o.1 (List.mem_map.2 ⟨o, ho, rfl⟩) h.symm
    · simp only [Prod.mk.injEq, Option.some.injEq, true_and] at h
      exact bodyText_keys hmore o ho h)
  obtain ⟨q'', c1, c2⟩ := Reader.lines_doc (cn := commonSectionName) hd.nonempty hd.notBlank hlater q'
    (by rw [b2.data.sections]; exact Reader.putCur_common q6 _ _)
    ⟨n2.2, fun x hx => hst.2 x (List.mem_append_right _ (List.mem_cons_of_mem _ hx))⟩ (by
      intro x hx hm
      rcases (b2.added x).1 hx with h | ⟨o, _, rfl⟩
      · rcases q7 _ h with h | rfl | ⟨o', _, rfl⟩ | rfl
        · exact n3 x.1 h x.1 (List.mem_cons_of_mem _ hm) rfl
        · exact n2.1 hm
        · exact n2.1 hm
        · exact n2.1 hm
      · exact n2.1 hm)
  have hread : Reader.lines commonSectionName (ds.map fun c => [c]) (linesOf (universalNewlines text)) {} = (none, q'') := by
    rw [hlines, List.append_assoc, List.append_assoc, Reader.lines_append, q1]
    dsimp only
    rw [Reader.lines_append, Reader.lines_skip _ hskip q (by intro s k h; rw [q4] at h; cases h)]
    dsimp only
    rw [Reader.lines_append, b1]
    exact c1
  obtain ⟨_, hq⟩ := file_bad hread (by rw [c2.bad, b2.bad, q2])
  rw [← hd.eq] at hq
  exact load_stops hc hf hp hq

theorem line_bad {D : List Str} {l : Str} {r : Reader} (hb : r.bad = true) (hs : r.cursect.isSome = true) :
    (r.line commonSectionName D l).2.bad = true ∧ (r.line commonSectionName D l).2.cursect.isSome = true ∧
    ∀ e, (r.line commonSectionName D l).1 = some e → e ∈ [.duplicateSection, .duplicateOption, .attributeError] := by
  obtain ⟨c, hc⟩ := Option.isSome_iff_exists.1 hs
  have hput : ∀ s d, (r.putCur commonSectionName s d).bad = true ∧ (r.putCur commonSectionName s d).cursect.isSome = true := by
    intro s d
    rw [Reader.putCur_bad, Reader.putCur_cursect]; exact ⟨hb, hs⟩
  unfold Reader.line
  dsimp only
  split
  · exact ⟨hb, hs, fun e h => by cases h⟩
  · split
    · split
      · split
        · exact ⟨(hput _ _).1, (hput _ _).2, fun e h => by cases h⟩
        · exact ⟨hb, hs, fun e h => by cases h⟩
      · exact ⟨hb, hs, fun e h => by cases h⟩
    · split
      · split
        · exact ⟨(hput _ _).1, (hput _ _).2, fun e h => by cases h⟩
        · exact ⟨hb, hs, fun e h => by cases h; simp⟩
      · split
        · unfold Reader.header
          dsimp only
          split
          · split
            · exact ⟨hb, hs, fun e h => by cases h; simp⟩
            · exact ⟨hb, rfl, fun e h => by cases h⟩
          · split
            · exact ⟨hb, rfl, fun e h => by cases h⟩
            · exact ⟨hb, rfl, fun e h => by cases h⟩
        · rw [hc]
          dsimp only
          unfold Reader.option
          dsimp only
          split
          · split
            · exact ⟨rfl, rfl, fun e h => by cases h; simp⟩
            · refine ⟨?_, ?_, fun e h => by cases h⟩
              · rw [Reader.putCur_bad]
              · rw [Reader.putCur_cursect]; rfl
          · split
            · exact ⟨hb, rfl, fun e h => by cases h; simp⟩
            · refine ⟨?_, ?_, fun e h => by cases h⟩
              · rw [Reader.putCur_bad]; exact hb
              · rw [Reader.putCur_cursect]; rfl

theorem lines_bad {D : List Str} (ls : List Str) : ∀ {r : Reader}, r.bad = true → r.cursect.isSome = true →
    (∃ q, Reader.lines commonSectionName D ls r = (none, q) ∧ q.bad = true) ∨
    ∃ e q, Reader.lines commonSectionName D ls r = (some e, q) ∧ e ∈ [.duplicateSection, .duplicateOption, .attributeError] := by
  induction ls with
  | nil => intro r hb _; exact .inl ⟨r, rfl, hb⟩
  | cons l ls ih =>
    intro r hb hs
    obtain ⟨h1, h2, h3⟩ := line_bad (D := D) (l := l) hb hs
    rw [Reader.lines]
    cases hx : r.line commonSectionName D l with
    | mk x q =>
      rw [hx] at h1 h2 h3
      cases x with
      | none => exact ih h1 h2
      | some e => exact .inr ⟨e, q, rfl, h3 e rfl⟩

/-- C44: an option line without a key spoils the text whatever comes after it: there is an exception, ParsingError or that
of a later fault. -/
theorem C44_empty_key_spoils {fs : FS} {ds : List Char} (hd : Delims f ds) (hc : f.cfg = none) {p : Str}
    (hf : f.files = some [p]) {text : Str} (hp : fs p = .file text) {lines : List Str} {doc : Doc} {i : Nat}
    {os : List DocOption} (hin : InSection ds lines doc s i os)
    {l w : Str} (hl : KeylessLine ds l w) (hi : os ≠ [] → w.length ≤ i) (ht : Upto text lines l) :
    ∃ e ∈ [PyExc.parsingError, .duplicateSection, .duplicateOption, .attributeError],
      (FOp.configdata.exec K n fs f).1 = .exc e := by
  obtain ⟨rest, hlines⟩ := upto_lines ht
  obtain ⟨q, q1, q2, q3, _⟩ := keyless_read hd hin hl hi
  have hall : Reader.lines commonSectionName (ds.map fun c => [c]) (linesOf (universalNewlines text)) {} =
      Reader.lines commonSectionName (ds.map fun c => [c]) rest q := by
    rw [hlines, List.append_cons, Reader.lines_append, q1]
  rcases lines_bad rest q2 (by rw [q3]; rfl) with ⟨q', h1, h2⟩ | ⟨e, q', h1, h2⟩
  · obtain ⟨_, hq⟩ := file_bad (hall.trans h1) h2
    rw [← hd.eq] at hq
    exact ⟨_, by simp, load_stops hc hf hp hq⟩
  · have hq : ∃ r, Reader.file commonSectionName (ds.map fun c => [c]) text {} = (some e, r) := by
      refine ⟨_, Prod.ext ?_ rfl⟩
      unfold Reader.file
      dsimp only
      rw [show ({ sections := ({} : Reader).sections, common := ({} : Reader).common } : Reader) = {} from rfl, hall, h1]
    obtain ⟨_, hq⟩ := hq
    rw [← hd.eq] at hq
    exact ⟨e, List.mem_cons_of_mem _ h2, load_stops hc hf hp hq⟩

/-! ### Examples -/

namespace IniExample

instance (c : Char) : Decidable (White c) := inferInstanceAs (Decidable (_ ∈ _))
instance (w : Str) : Decidable (Blanks w) := inferInstanceAs (Decidable (∀ c ∈ w, _))
instance (d : Doc) : Decidable d.Strict := inferInstanceAs (Decidable (_ ∧ ∀ x ∈ d, (x.2.map Prod.fst).Nodup))
instance (t : Str) : Decidable (OneLine t) := inferInstanceAs (Decidable (_ ∧ _))

theorem all_head {o : Option Char} {p : Char → Prop} [DecidablePred p] : (o.all fun c => decide (p c)) = true ↔
    ∀ c, o = some c → p c := by cases o <;> simp

instance (t : Str) : Decidable (Tight t) :=
  decidable_of_iff (((t.head?.all fun c => decide (¬ White c)) = true) ∧ ((t.getLast?.all fun c => decide (¬ White c)) = true))
    (and_congr all_head all_head)

instance (o : Option Char) (p : Char → Prop) [DecidablePred p] : Decidable (∀ c, o = some c → p c) :=
  decidable_of_iff _ all_head

theorem goodKey_iff (ds : List Char) (k : Str) : GoodKey ds k ↔ k ≠ [] ∧ Tight k ∧ OneLine k ∧ (∀ c ∈ k, c ∉ ds) ∧
    ∀ c, k.head? = some c → c ≠ '#' ∧ c ≠ ';' ∧ c ≠ '[' :=
  ⟨fun h => ⟨h.1, h.2, h.3, h.4, h.5⟩, fun ⟨a, b, c, d, e⟩ => ⟨a, b, c, d, e⟩⟩

instance (ds : List Char) (k : Str) : Decidable (GoodKey ds k) := decidable_of_iff _ (goodKey_iff ds k).symm

/-- The delimiters of a new object. -/
def ds : List Char := ['=', ':']

theorem value {w k a d b v e : Str} {c : Char} {i : Nat} (h : (Blanks w ∧ w.length = i ∧ GoodKey ds k ∧ Blanks a ∧ c ∈ ds ∧
    Blanks b ∧ Tight v ∧ OneLine v ∧ Blanks e) ∧ d = w ++ k ++ a ++ c :: b ++ v ++ e) : OptionLine ds i d k (some v) := by
  obtain ⟨⟨h1, h2, h3, h4, h5, h6, h7, h8, h9⟩, rfl⟩ := h
  exact .value h1 h2 h3 h4 h5 h6 h7 h8 h9

theorem bare {w k d e : Str} {i : Nat} (h : (Blanks w ∧ w.length = i ∧ GoodKey ds k ∧ Blanks e) ∧ d = w ++ k ++ e) :
    OptionLine ds i d k none := by
  obtain ⟨⟨h1, h2, h3, h4⟩, rfl⟩ := h
  exact .bare h1 h2 h3 h4

theorem header {name junk d : Str} (h : (name ≠ [] ∧ OneLine name ∧ OneLine junk ∧ ']' ∉ junk) ∧
    d = '[' :: name ++ ']' :: junk) : HeaderLine name d := by
  obtain ⟨⟨h1, h2, h3, h4⟩, rfl⟩ := h
  exact .mk h1 h2 h3 h4

theorem comment {w d t : Str} {c : Char} (h : (Blanks w ∧ (c = '#' ∨ c = ';') ∧ OneLine t) ∧ d = w ++ c :: t) : CommentLine d := by
  obtain ⟨⟨h1, h2, h3⟩, rfl⟩ := h
  exact .mk h1 h2 h3

/-- Comments, an indented section, a value of three lines, a bare key, the common section, a header with junk, both line
ends and a last line without end. -/
def text : Str := py!"# top\n\n[A] ignored\r\n  key = 1\n    two\n\n  ; note\n   three: 3\n\n  use B\n[CONFIGPARSERENHANCED_COMMON]\nx:y = z  \n[B]"

def doc : Doc :=
  [(py!"A", [(py!"key", some [py!"1", py!"two", [], py!"three: 3", []]), (py!"use B", none)]),
   (common, [(py!"x", some [py!"y = z"])]), (py!"B", [])]

theorem body_A : BodyText ds 2 [py!"  key = 1", py!"    two", [], py!"  ; note", py!"   three: 3", [], py!"  use B"]
    [(py!"key", some [py!"1", py!"two", [], py!"three: 3", []]), (py!"use B", none)] := by
  refine .cons (ls := [py!"  key = 1", py!"    two", [], py!"  ; note", py!"   three: 3", []]) (ls' := [py!"  use B"])
    (.value (value (w := py!"  ") (a := py!" ") (c := '=') (b := py!" ") (e := []) (by decide +kernel)) ?_)
    (.cons (ls := [py!"  use B"]) (ls' := []) (.bare (bare (k := py!"use B") (w := py!"  ") (e := []) (by decide +kernel))
      (by simp)) .nil)
  refine .text (w := py!"    ") (t := py!"two") (e := []) (by decide +kernel) (by decide) (by decide) (by decide +kernel)
    (by decide +kernel) (by decide +kernel) (by decide +kernel) (.blank (by decide +kernel) (.comment (comment (w := py!"  ")
    (c := ';') (t := py!" note") (by decide +kernel)) ?_))
  exact .text (w := py!"   ") (t := py!"three: 3") (e := []) (by decide +kernel) (by decide) (by decide) (by decide +kernel)
    (by decide +kernel) (by decide +kernel) (by decide +kernel) (.blank (by decide +kernel) .nil)

theorem says : Says ds text doc := by
  refine ⟨[py!"# top", []], [py!"[A] ignored", py!"  key = 1", py!"    two", [], py!"  ; note", py!"   three: 3", [], py!"  use B",
    py!"[CONFIGPARSERENHANCED_COMMON]", py!"x:y = z  ", py!"[B]"], ?_, ?_, ?_⟩
  · intro x hx
    rcases List.mem_cons.1 hx with rfl | hx
    · exact .inl (comment (w := []) (c := '#') (t := py!" top") (by decide +kernel))
    · cases List.mem_singleton.1 hx; exact .inr (by decide +kernel)
  · refine .cons (skip := []) (header (junk := py!" ignored") (by decide +kernel)) (by simp) body_A ?_
    refine .cons (skip := []) (i := 0) (ls := [py!"x:y = z  "]) (header (junk := []) (by decide +kernel)) (by simp)
      (.cons (ls' := []) (.value (value (w := []) (a := []) (c := ':') (b := []) (e := py!"  ") (by decide +kernel)) .nil) .nil) ?_
    exact .cons (skip := []) (i := 0) (ls := []) (ls' := []) (header (junk := []) (by decide +kernel)) (by simp) .nil .nil
  · exact .unix (.unix (.dos (.unix (.unix (.unix (.unix (.unix (.unix (.unix (l := py!"  use B") (.unix (.unix (.last (by decide)))))))))))))

theorem strict : doc.Strict := by decide +kernel

/-- A second file, and the files on disk. -/
def text2 : Str := py!"[B]\nnew: 1\n[A]\nkey: 2\n"

def doc2 : Doc := [(py!"B", [(py!"new", some [py!"1"])]), (py!"A", [(py!"key", some [py!"2"])])]

theorem sections2 : SectionsText ds [py!"[B]", py!"new: 1", py!"[A]", py!"key: 2"] doc2 :=
  .cons (skip := []) (i := 0) (ls := [py!"new: 1"]) (header (junk := []) (by decide +kernel)) (by simp)
    (.cons (ls' := []) (.value (value (w := []) (a := []) (c := ':') (b := py!" ") (e := []) (by decide +kernel)) .nil) .nil)
    (.cons (skip := []) (i := 0) (ls := [py!"key: 2"]) (ls' := []) (header (junk := []) (by decide +kernel)) (by simp)
    (.cons (ls' := []) (.value (value (w := []) (a := []) (c := ':') (b := py!" ") (e := []) (by decide +kernel)) .nil) .nil) .nil)

theorem says2 : Says ds text2 doc2 :=
  ⟨[], _, by simp, sections2, .unix (l := py!"[B]") (.unix (l := py!"new: 1") (.unix (l := py!"[A]") (.unix (l := py!"key: 2") .nil)))⟩

/-- The first lines of `text2`, up to within its second section. -/
theorem inSection2 : InSection ds [py!"[B]", py!"new: 1", py!"[A]", py!"key: 2"] [(py!"B", [(py!"new", some [py!"1"])])] py!"A" 0
    [(py!"key", some [py!"2"])] where
  parts := by
    refine ⟨[], [py!"[B]", py!"new: 1"], py!"[A]", [], [py!"key: 2"], rfl, by simp, ?_, header (junk := []) (by decide +kernel),
      by simp, ?_⟩
    · exact .cons (skip := []) (i := 0) (ls := [py!"new: 1"]) (ls' := []) (header (junk := []) (by decide +kernel)) (by simp)
        (.cons (ls' := []) (.value (value (w := []) (a := []) (c := ':') (b := py!" ") (e := []) (by decide +kernel)) .nil) .nil) .nil
    · exact .cons (ls' := []) (.value (value (w := []) (a := []) (c := ':') (b := py!" ") (e := []) (by decide +kernel)) .nil) .nil
  strict := by decide +kernel

def disk : FS := fun p =>
  if p = py!"a" then .file text
  else if p = py!"b" then .file text2
  else if p = py!"u" then .unreadable
  else if p = py!"s" then .file (text2 ++ py!"[B]\n")
  else if p = py!"o" then .file (text2 ++ py!"key = 3\n[C]\n")
  else if p = py!"h" then .file py!"\nkey = 3\n[C]\n"
  else if p = py!"n" then .file py!"[C]\nkey\n  more\n"
  else if p = py!"e" then .file (text2 ++ py!"= 3\n\nother: 4\n[C]\nkey: 5\n")
  else if p = py!"g" then .file (text2 ++ py!"= 3\n[B]\n")
  else .absent

/-- An object whose file list is `ps`, before anything was loaded. -/
def on (ps : List Str) : Full (List Str) Unit := ((Full.new LifeExample.cls ()).setFiles (.many (ps.map some))).2

theorem delims (ps : List Str) (h : (on ps).delimiters = [py!"=", py!":"] := by rfl) : Delims (on ps) ds := ⟨h, by decide, by decide +kernel⟩

end IniExample

open IniExample in
/-- C42, C43 on the example. -/
example : (FOp.configdata.exec LifeExample.cls 9 disk (on [py!"a"])).1 = .ok (.cfg
    { sections := [(py!"A", [(py!"key", some py!"1\ntwo\n\nthree: 3"), (py!"use B", none)]), (py!"B", [])]
      common := [(py!"x", some py!"y = z")]
      commonName := common }) :=
  (C42_text_is_read (delims _) rfl (p := py!"a") (by rfl) (by rfl) says strict).trans (by decide +kernel)

open IniExample in
example : (FOp.configdata.exec LifeExample.cls 9 disk (on [py!"a", py!"u", py!"b"])).1 = .ok (.cfg
    { sections := [(py!"A", [(py!"key", some py!"2"), (py!"use B", none)]), (py!"B", [(py!"new", some py!"1")])]
      common := [(py!"x", some py!"y = z")]
      commonName := common }) :=
  (C43_files_in_order (delims _) rfl (ps := [py!"a", py!"u", py!"b"]) (by rfl) (by simp)
    (.read (by rfl) says strict (.skip (by rfl) (.read (by rfl) says2 (by decide +kernel) .nil)))).trans (by decide +kernel)

open IniExample in
/-- C44 on the examples. -/
example : (FOp.configdata.exec LifeExample.cls 9 disk (on [py!"s"])).1 = .exc .duplicateSection :=
  C44_duplicate_section (delims _) rfl (p := py!"s") (by rfl) (by rfl) (skip := []) (by simp) sections2 (by decide +kernel)
    (s := py!"B") (by decide +kernel) (by decide +kernel) (header (junk := []) (by decide +kernel) (d := py!"[B]"))
    ⟨by decide +kernel, by decide +kernel, [], by simp, .unix (.unix (.unix (.unix (.unix .nil))))⟩

open IniExample in
example : (FOp.configdata.exec LifeExample.cls 9 disk (on [py!"o"])).1 = .exc .duplicateOption :=
  C44_duplicate_option (delims _) rfl (p := py!"o") (by rfl) (by rfl) inSection2 (k := py!"key") (by decide +kernel) (j := 0)
    (l := py!"key = 3") (value (w := []) (a := py!" ") (c := '=') (b := py!" ") (e := []) (v := py!"3") (by decide +kernel))
    (by decide) ⟨by decide +kernel, by decide +kernel, [py!"[C]"], by decide +kernel,
      .unix (l := py!"[B]") (.unix (l := py!"new: 1") (.unix (l := py!"[A]") (.unix (l := py!"key: 2")
      (.unix (l := py!"key = 3") (.unix (l := py!"[C]") .nil)))))⟩

open IniExample in
example : (FOp.configdata.exec LifeExample.cls 9 disk (on [py!"h"])).1 = .exc .missingSectionHeader :=
  C44_missing_header rfl (p := py!"h") (by rfl) (by rfl) (skip := [[]])
    (fun x hx => by cases List.mem_singleton.1 hx; exact .inr (by decide +kernel)) (w := []) (t := py!"key = 3") (e := [])
    (by decide +kernel) (by decide) (by decide +kernel) (by decide +kernel) (by decide +kernel)
    ⟨by decide +kernel, by decide +kernel, [py!"[C]"], by decide +kernel,
      .unix (.unix (l := py!"key = 3") (.unix (l := py!"[C]") .nil))⟩

open IniExample in
example : (FOp.configdata.exec LifeExample.cls 9 disk (on [py!"n"])).1 = .exc .attributeError :=
  C44_continued_bare_option (delims _) rfl (p := py!"n") (by rfl) (by rfl) (lines := [py!"[C]", py!"key"]) (doc := []) (s := py!"C")
    (i := 0) (os := []) (k := py!"key")
    ⟨⟨[], [], py!"[C]", [], [py!"key"], rfl, by simp, .nil, header (junk := []) (by decide +kernel), by simp,
      .cons (ls := [py!"key"]) (ls' := []) (.bare (bare (k := py!"key") (w := []) (e := []) (by decide +kernel)) (by simp)) .nil⟩,
      by decide +kernel⟩
    (w := py!"  ") (t := py!"more") (e := []) (by decide +kernel) (by decide) (by decide) (by decide +kernel) (by decide +kernel)
    (by decide +kernel)
    ⟨by decide +kernel, by decide +kernel, [], by simp, .unix (l := py!"[C]") (.unix (l := py!"key") (.unix (l := py!"  more") .nil))⟩

open IniExample in
theorem keyless : KeylessLine ds py!"= 3" [] where
  parts := ⟨'=', py!" 3", [], rfl, by decide, by decide, by decide, by decide, by decide +kernel, by decide +kernel, by decide +kernel⟩
  indent := by decide +kernel

-- the faulty line is followed by an empty line, by another option and by another section
open IniExample in
example : (FOp.configdata.exec LifeExample.cls 9 disk (on [py!"e"])).1 = .exc .parsingError :=
  C44_empty_key (delims _) rfl (p := py!"e") (by rfl) (by rfl) inSection2 (by decide +kernel) keyless (fun _ => by decide)
    (skip := [[]]) (more := [py!"other: 4"]) (later := [py!"[C]", py!"key: 5"]) (j := 0)
    (fun x hx => by cases List.mem_singleton.1 hx; exact .inr (by decide +kernel))
    (.cons (ls' := []) (.value (value (k := py!"other") (w := []) (a := []) (c := ':') (b := py!" ") (e := []) (v := py!"4")
      (by decide +kernel)) .nil) .nil)
    (.cons (skip := []) (i := 0) (ls := [py!"key: 5"]) (ls' := []) (header (name := py!"C") (junk := []) (by decide +kernel)) (by simp)
      (.cons (ls' := []) (.value (value (k := py!"key") (w := []) (a := []) (c := ':') (b := py!" ") (e := []) (v := py!"5")
        (by decide +kernel)) .nil) .nil) .nil)
    (by decide +kernel)
    (.unix (l := py!"[B]") (.unix (l := py!"new: 1") (.unix (l := py!"[A]") (.unix (l := py!"key: 2") (.unix (l := py!"= 3")
      (.unix (l := []) (.unix (l := py!"other: 4") (.unix (l := py!"[C]") (.unix (l := py!"key: 5") .nil)))))))))

-- the faulty line is followed by another fault
open IniExample in
example : ∃ e ∈ [PyExc.parsingError, .duplicateSection, .duplicateOption, .attributeError],
    (FOp.configdata.exec LifeExample.cls 9 disk (on [py!"g"])).1 = .exc e :=
  C44_empty_key_spoils (delims _) rfl (p := py!"g") (by rfl) (by rfl) inSection2 keyless (fun _ => by decide)
    ⟨by decide +kernel, by decide +kernel, [py!"[B]"], by decide +kernel,
      .unix (l := py!"[B]") (.unix (l := py!"new: 1") (.unix (l := py!"[A]") (.unix (l := py!"key: 2") (.unix (l := py!"= 3")
      (.unix (l := py!"[B]") .nil)))))⟩

end CPE.Props
