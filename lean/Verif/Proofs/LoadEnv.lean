import Verif.Spec.GenConfig
import Verif.Proofs.ConfigKeywords
import Verif.Props.Keywords
/-
Lemmas on LoadEnv: what its operations yield depends on the build name and the force flag only.
-/
namespace CPE.KW
open CPE CPE.Spec CPE.SetEnv CPE.KW.Spec

/-- The environment was remembered. -/
def remember (k : EKP) : Out Str → EKP
  | .ok q => { k with qualified := some q }
  | _ => k

theorem ekpNew_qualified {E : Env Unit Unit} {n : Nat} {build sys : Str} {k : EKP} (h : EKP.new E n build sys = .ok k) :
    k.qualified = none := by
  obtain ⟨d, o1, _, _, _, rfl⟩ := CPE.Props.ekpNew_ok h; rfl

/-- `qualified_env_name` of a new EnvKeywordParser changes nothing but what it remembers. -/
theorem qualified_state {E : Env Unit Unit} {n : Nat} {H : Host} {build sys : Str} {k : EKP} (h : EKP.new E n build sys = .ok k) :
    EKP.qualifiedEnvName E n H k = ((EKP.qualifiedEnvName E n H k).1, remember k (EKP.qualifiedEnvName E n H k).1) := by
  obtain ⟨d, o1, hr, ha, hn, rfl⟩ := CPE.Props.ekpNew_ok h
  unfold EKP.qualifiedEnvName
  dsimp only
  cases firstMatch H build (sortByLen (Dict.keys d)) with
  | exc e => rfl
  | diverge => rfl
  | ok x =>
    cases x with
    | some name => rfl
    | none =>
      dsimp only
      cases firstMatch H build (sortByLen (allValues d)) with
      | exc e => rfl
      | diverge => rfl
      | ok y =>
        cases y with
        | none => rfl
        | some al =>
          dsimp only
          rcases getKey_ok (getItem_again hr n) ha al with ⟨k', _, e⟩ | ⟨_, e⟩
          · rw [e]; rfl
          · rw [e]; rfl

section
variable (T : Tool)

def sysRes (b : Str) (f : Bool) : Out (Option Str) :=
  (DS.systemName (cls T.systems) T.fuel T.host (DS.new (cls T.systems) b f)).1

def ekpRes (b : Str) (f : Bool) : Out EKP :=
  andThen (sysRes T b f) fun
    | none => .exc .keyError
    | some s => EKP.new (cls T.envs) T.fuel b s

def parsedRes (b : Str) (f : Bool) : Out Str :=
  andThen (ekpRes T b f) fun k => (EKP.qualifiedEnvName (cls T.envs) T.fuel T.host k).1

def keptWords (k : EKP) (b : Str) : List Str :=
  (((splitChar '_' b).filter fun w => !k.envNames.contains w).filter fun w => !k.aliases.contains w).filter
    fun w => !(sysNames (cls T.systems)).contains w

def strippedRes (b : Str) (f : Bool) : Out Str :=
  andThen (ekpRes T b f) fun k => .ok (joinStr ['_'] (keptWords T k b))

def leRes (b : Str) (f : Bool) : LeOp → Out LeVal
  | .setBuildName _ => .ok .unit
  | .systemName => andThen (sysRes T b f) fun s => .ok (.sys s)
  | .parsedEnvName => andThen (parsedRes T b f) fun s => .ok (.str s)
  | .strippedBuildName => andThen (strippedRes T b f) fun s => .ok (.str s)

/-- Everything the object remembers is right for its build name and force flag. -/
structure LEInv (l : LE) : Prop where
  system : ∀ r, l.systemName = some r → sysRes T l.buildName l.force = .ok r
  ekp : ∀ k, l.ekp = some k → ∃ k0, ekpRes T l.buildName l.force = .ok k0 ∧
    (k = k0 ∨ ∃ q, (EKP.qualifiedEnvName (cls T.envs) T.fuel T.host k0).1 = .ok q ∧ k = { k0 with qualified := some q })
  parsed : ∀ p, l.parsed = some p → parsedRes T l.buildName l.force = .ok p
  stripped : ∀ p, l.stripped = some p → strippedRes T l.buildName l.force = .ok p

/-- The build name and the flag are kept. -/
def Same (l l' : LE) : Prop := l'.buildName = l.buildName ∧ l'.force = l.force

variable {T}

theorem leInv_blank {l : LE} (h1 : l.systemName = none) (h2 : l.ekp = none) (h3 : l.parsed = none) (h4 : l.stripped = none) :
    LEInv T l :=
  ⟨(fun r h => by rw [h1] at h; cases h), (fun r h => by rw [h2] at h; cases h), (fun r h => by rw [h3] at h; cases h),
    (fun r h => by rw [h4] at h; cases h)⟩

theorem ekpRes_new {b : Str} {f : Bool} {k : EKP} (h : ekpRes T b f = .ok k) :
    ∃ s, sysRes T b f = .ok (some s) ∧ EKP.new (cls T.envs) T.fuel b s = .ok k := by
  unfold ekpRes at h
  cases hs : sysRes T b f with
  | exc e => rw [hs] at h; cases h
  | diverge => rw [hs] at h; cases h
  | ok r =>
    rw [hs] at h
    cases r with
    | none => cases h
    | some s => exact ⟨s, rfl, h⟩

theorem system_step {l : LE} (hl : LEInv T l) :
    ∃ l', LE.getSystemName T l = (sysRes T l.buildName l.force, l') ∧ LEInv T l' ∧ Same l l' ∧ l'.ekp = l.ekp := by
  unfold LE.getSystemName
  cases hn : l.systemName with
  | some r => exact ⟨l, by rw [hl.system r hn], hl, ⟨rfl, rfl⟩, rfl⟩
  | none =>
    dsimp only
    rw [show (DS.systemName (cls T.systems) T.fuel T.host (DS.new (cls T.systems) l.buildName l.force)).1 =
      sysRes T l.buildName l.force from rfl]
    cases hs : sysRes T l.buildName l.force with
    | ok r =>
      refine ⟨_, rfl, ⟨?_, hl.ekp, hl.parsed, hl.stripped⟩, ⟨rfl, rfl⟩, rfl⟩
      intro r' h'; cases h'; exact hs
    | exc e => exact ⟨l, rfl, hl, ⟨rfl, rfl⟩, rfl⟩
    | diverge => exact ⟨l, rfl, hl, ⟨rfl, rfl⟩, rfl⟩

theorem load_step {l : LE} (hl : LEInv T l) :
    ∃ l', LE.loadKeywordParser T l = (ekpRes T l.buildName l.force, l') ∧ LEInv T l' ∧ Same l l' := by
  obtain ⟨l1, h1, hl1, ⟨hb, hf⟩, _⟩ := system_step hl
  unfold LE.loadKeywordParser
  cases hs : sysRes T l.buildName l.force with
  | exc e => rw [hs] at h1; rw [M.bind_exc h1]; exact ⟨l1, by rw [ekpRes, hs]; rfl, hl1, hb, hf⟩
  | diverge => rw [hs] at h1; rw [M.bind_diverge h1]; exact ⟨l1, by rw [ekpRes, hs]; rfl, hl1, hb, hf⟩
  | ok r =>
    rw [hs] at h1; rw [M.bind_ok h1]
    cases r with
    | none => exact ⟨l1, by rw [ekpRes, hs]; rfl, hl1, hb, hf⟩
    | some s =>
      have e : ekpRes T l.buildName l.force = EKP.new (cls T.envs) T.fuel l.buildName s := by rw [ekpRes, hs]; rfl
      dsimp only
      rw [← hb] at e
      cases hk : EKP.new (cls T.envs) T.fuel l1.buildName s with
      | exc x => exact ⟨l1, by rw [← hb, e, hk], hl1, hb, hf⟩
      | diverge => exact ⟨l1, by rw [← hb, e, hk], hl1, hb, hf⟩
      | ok k =>
        refine ⟨{ l1 with ekp := some k }, by rw [← hb, e, hk], ⟨hl1.system, ?_, hl1.parsed, hl1.stripped⟩, hb, hf⟩
        intro k' h'; cases h'
        refine ⟨k, ?_, .inl rfl⟩
        show ekpRes T l1.buildName l1.force = _
        rw [hf, e, hk]

/-- `env_keyword_parser`, loaded if there is none. -/
theorem keyword_step {l : LE} (hl : LEInv T l) :
    (∃ k0 k l', ekpRes T l.buildName l.force = .ok k0 ∧ LE.getKeywordParser T l = (.ok k, l') ∧ LEInv T l' ∧ Same l l' ∧
      (k = k0 ∨ ∃ q, (EKP.qualifiedEnvName (cls T.envs) T.fuel T.host k0).1 = .ok q ∧ k = { k0 with qualified := some q })) ∨
    (∃ e l', ekpRes T l.buildName l.force = .exc e ∧ LE.getKeywordParser T l = (.exc e, l') ∧ LEInv T l' ∧ Same l l') ∨
    (∃ l', ekpRes T l.buildName l.force = .diverge ∧ LE.getKeywordParser T l = (.diverge, l') ∧ LEInv T l' ∧ Same l l') := by
  unfold LE.getKeywordParser
  rw [M.read_bind]
  cases hk : l.ekp with
  | some k =>
    obtain ⟨k0, h1, h2⟩ := hl.ekp k hk
    exact .inl ⟨k0, k, l, h1, rfl, hl, ⟨rfl, rfl⟩, h2⟩
  | none =>
    obtain ⟨l', h1, h2, h3⟩ := load_step hl
    cases he : ekpRes T l.buildName l.force with
    | ok k => rw [he] at h1; exact .inl ⟨k, k, l', rfl, h1, h2, h3, .inl rfl⟩
    | exc e => rw [he] at h1; exact .inr (.inl ⟨e, l', rfl, h1, h2, h3⟩)
    | diverge => rw [he] at h1; exact .inr (.inr ⟨l', rfl, h1, h2, h3⟩)

theorem parsed_step {l : LE} (hl : LEInv T l) :
    ∃ l', LE.getParsedEnvName T l = (parsedRes T l.buildName l.force, l') ∧ LEInv T l' ∧ Same l l' := by
  unfold LE.getParsedEnvName
  rw [M.read_bind]
  cases hp : l.parsed with
  | some p => exact ⟨l, by rw [hl.parsed p hp]; rfl, hl, rfl, rfl⟩
  | none =>
    dsimp only
    rcases keyword_step hl with ⟨k0, k, l1, he, h1, hl1, ⟨hb, hf⟩, hk⟩ | ⟨e, l1, he, h1, hl1, hs⟩ | ⟨l1, he, h1, hl1, hs⟩
    · rw [M.bind_ok h1]
      have hpr : parsedRes T l.buildName l.force = (EKP.qualifiedEnvName (cls T.envs) T.fuel T.host k0).1 := by
        rw [parsedRes, he]; rfl
      obtain ⟨s, _, hnew⟩ := ekpRes_new he
      have hst := qualified_state (H := T.host) hnew
      rw [hpr]
      rcases hk with rfl | ⟨q, hq, rfl⟩
      · rw [hst]
        cases hr : (EKP.qualifiedEnvName (cls T.envs) T.fuel T.host k).1 with
        | ok q =>
          refine ⟨_, rfl, ⟨hl1.system, ?_, ?_, hl1.stripped⟩, hb, hf⟩
          · intro k' h'
            cases h'
            refine ⟨k, ?_, .inr ⟨q, hr, rfl⟩⟩
            show ekpRes T l1.buildName l1.force = _
            rw [hb, hf, he]
          · intro p' h'; cases h'
            show parsedRes T l1.buildName l1.force = _
            rw [hb, hf, hpr, hr]
        | exc e =>
          refine ⟨_, rfl, ⟨hl1.system, ?_, hl1.parsed, hl1.stripped⟩, hb, hf⟩
          intro k' h'; cases h'
          refine ⟨k, ?_, .inl rfl⟩
          show ekpRes T l1.buildName l1.force = _
          rw [hb, hf, he]
        | diverge =>
          refine ⟨_, rfl, ⟨hl1.system, ?_, hl1.parsed, hl1.stripped⟩, hb, hf⟩
          intro k' h'; cases h'
          refine ⟨k, ?_, .inl rfl⟩
          show ekpRes T l1.buildName l1.force = _
          rw [hb, hf, he]
      · rw [hq]
        have : EKP.qualifiedEnvName (cls T.envs) T.fuel T.host { k0 with qualified := some q } = (.ok q, { k0 with qualified := some q }) := rfl
        rw [this]
        refine ⟨_, rfl, ⟨hl1.system, ?_, ?_, hl1.stripped⟩, hb, hf⟩
        · intro k' h'
          cases h'
          refine ⟨k0, ?_, .inr ⟨q, hq, rfl⟩⟩
          show ekpRes T l1.buildName l1.force = _
          rw [hb, hf, he]
        · intro p' h'; cases h'
          show parsedRes T l1.buildName l1.force = _
          rw [hb, hf, hpr, hq]
    · rw [M.bind_exc h1]; exact ⟨l1, by rw [parsedRes, he]; rfl, hl1, hs⟩
    · rw [M.bind_diverge h1]; exact ⟨l1, by rw [parsedRes, he]; rfl, hl1, hs⟩

theorem stripped_step {l : LE} (hl : LEInv T l) :
    ∃ l', LE.getStripped T l = (strippedRes T l.buildName l.force, l') ∧ LEInv T l' ∧ Same l l' := by
  unfold LE.getStripped
  rw [M.read_bind]
  cases hp : l.stripped with
  | some p => exact ⟨l, by rw [hl.stripped p hp]; rfl, hl, rfl, rfl⟩
  | none =>
    dsimp only
    rcases keyword_step hl with ⟨k0, k, l1, he, h1, hl1, ⟨hb, hf⟩, hk⟩ | ⟨e, l1, he, h1, hl1, hs⟩ | ⟨l1, he, h1, hl1, hs⟩
    · rw [M.bind_ok h1]
      have hkw : keptWords T k l1.buildName = keptWords T k0 l1.buildName := by
        rcases hk with rfl | ⟨q, _, rfl⟩ <;> rfl
      have hpr : strippedRes T l.buildName l.force = .ok (joinStr ['_'] (keptWords T k0 l.buildName)) := by
        rw [strippedRes, he]; rfl
      rw [hpr]
      refine ⟨{ l1 with stripped := some (joinStr ['_'] (keptWords T k l1.buildName)) }, ?_,
        ⟨hl1.system, hl1.ekp, hl1.parsed, ?_⟩, hb, hf⟩
      · rw [M.read_bind]
        refine Prod.ext ?_ rfl
        show Out.ok (joinStr ['_'] (keptWords T k l1.buildName)) = _
        rw [hkw, hb]
      · intro p' h'; cases h'
        show strippedRes T l1.buildName l1.force = _
        rw [hkw, hb, hf, hpr]
    · rw [M.bind_exc h1]; exact ⟨l1, by rw [strippedRes, he]; rfl, hl1, hs⟩
    · rw [M.bind_diverge h1]; exact ⟨l1, by rw [strippedRes, he]; rfl, hl1, hs⟩

/-- Wrapping of results. -/
theorem wrap_step {W α β : Type} {m : M W α} {w w' : W} {r : Out α} (h : m w = (r, w')) (g : α → β) :
    (m >>= fun a => pure (g a)) w = (andThen r fun a => .ok (g a), w') := by
  cases r with
  | ok a => rw [M.bind_ok h]; rfl
  | exc e => rw [M.bind_exc h]; rfl
  | diverge => rw [M.bind_diverge h]; rfl

theorem le_exec {l : LE} (hl : LEInv T l) (op : LeOp) :
    ∃ l', LeOp.exec T op l = (leRes T l.buildName l.force op, l') ∧ LEInv T l' ∧ l'.force = l.force ∧
      l'.buildName = (match op with | .setBuildName b => b | _ => l.buildName) := by
  cases op with
  | setBuildName b => exact ⟨_, rfl, leInv_blank rfl rfl rfl rfl, rfl, rfl⟩
  | systemName =>
    obtain ⟨l', h1, h2, h3, _⟩ := system_step hl
    exact ⟨l', wrap_step h1 _, h2, h3.2, h3.1⟩
  | parsedEnvName =>
    obtain ⟨l', h1, h2, h3⟩ := parsed_step hl
    exact ⟨l', wrap_step h1 _, h2, h3.2, h3.1⟩
  | strippedBuildName =>
    obtain ⟨l', h1, h2, h3⟩ := stripped_step hl
    exact ⟨l', wrap_step h1 _, h2, h3.2, h3.1⟩

theorem leInv_new (b : Str) (f : Bool) : LEInv T (LE.new b f) := leInv_blank rfl rfl rfl rfl

theorem le_run (ops : List LeOp) {l : LE} (hl : LEInv T l) :
    LEInv T (LeOp.run T ops l) ∧ (LeOp.run T ops l).force = l.force ∧
      (LeOp.run T ops l).buildName = LeOp.buildAfter l.buildName ops := by
  induction ops generalizing l with
  | nil => exact ⟨hl, rfl, rfl⟩
  | cons op ops ih =>
    obtain ⟨l', h1, h2, h3, h4⟩ := le_exec hl op
    obtain ⟨i1, i2, i3⟩ := ih h2
    rw [LeOp.run, h1]
    refine ⟨i1, i2.trans h3, i3.trans ?_⟩
    rw [h4]
    cases op <;> rfl

end
end CPE.KW
