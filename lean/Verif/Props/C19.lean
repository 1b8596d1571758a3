import Verif.Lemmas.Station
import Verif.Spec.GpsEvidence
import Verif.Spec.StationSamples

/-!
# C19 — the GPS reference is set only on sufficient evidence
-/

set_option linter.unusedSectionVars false

namespace EkfCal
open Ekf
variable {K : Type} [Field K] [LinearOrder K]

/-- Stored fixes and reference, as one value. -/
def Ekf.gpsData (e : Ekf K) : List K × List (V3 K) × List (V3 K) × V3 K × K × Bool :=
  (e.gpsTimeVec, e.gpsEcefVec, e.gpsXyzVec, e.reference)

theorem Ekf.Frame.gpsData {e e' : Ekf K} (h : Frame e e') : e'.gpsData = e.gpsData := by
  simp only [Ekf.gpsData, reference, h.gpsTimeVec, h.gpsEcefVec, h.gpsXyzVec, h.posEInG, h.angLToE, h.lla]

theorem gps_step {N : Prim K} {e e' : Ekf K} {op : Op K} (h : step N e op = .ok e') :
    (∃ t x f, op = .attemptGpsInit t x f ∧ e.attemptGpsInit t x f = .ok e') ∨
    (∃ p a, op = .setGpsReference p a ∧ e' = e.setGpsReference p a) ∨
    ((∀ t x f, op ≠ .attemptGpsInit t x f) ∧ (∀ p a, op ≠ .setGpsReference p a) ∧ e'.gpsData = e.gpsData) := by
  have hf := step_frame h
  cases op with
  | attemptGpsInit t x f => exact .inl ⟨t, x, f, rfl, h⟩
  | setGpsReference p a => exact .inr (.inl ⟨p, a, rfl, hf⟩)
  | predict t =>
    refine .inr (.inr ⟨by simp, by simp, ?_⟩)
    unfold StepFrame at hf
    dsimp only at hf
    split at hf
    · rw [hf]
    · exact hf.gpsData
  | initializeAt t b => refine .inr (.inr ⟨by simp, by simp, ?_⟩); cases hf; rfl
  | setMaxTrackLength n => refine .inr (.inr ⟨by simp, by simp, ?_⟩); cases hf; rfl
  | setZeroAcceleration b => refine .inr (.inr ⟨by simp, by simp, ?_⟩); cases hf; rfl
  | initializeGravity => refine .inr (.inr ⟨by simp, by simp, ?_⟩); cases hf; rfl
  | localTime t =>
    refine .inr (.inr ⟨by simp, by simp, ?_⟩); cases hf; unfold calculateLocalTime; split <;> rfl
  | setBodyProcessNoise v => refine .inr (.inr ⟨by simp, by simp, ?_⟩); cases hf; rfl
  | _ => exact .inr (.inr ⟨by simp, by simp, Frame.gpsData hf⟩)

theorem fixes_other {op : Op K} (h : ∀ t x f, op ≠ .attemptGpsInit t x f) (ops : List (Op K)) :
    fixes (op :: ops) = fixes ops := by
  cases op <;> first | rfl | exact absurd rfl (h _ _ _)

theorem recorded_run {N : Prim K} : ∀ {ops : List (Op K)} {e e' : Ekf K}, run N e ops = .ok e' →
    e'.gpsTimeVec = e.gpsTimeVec ++ (fixes ops).map (·.1) ∧ e'.gpsEcefVec = e.gpsEcefVec ++ (fixes ops).map (·.2) ∧
    ∃ l : List (V3 K), l.length = (fixes ops).length ∧ e'.gpsXyzVec = e.gpsXyzVec ++ l
  | [], e, e', h => by cases h; exact ⟨by simp [fixes], by simp [fixes], [], rfl, by simp⟩
  | op :: ops, e, e', h => by
    simp only [run, bind_ok_iff] at h
    obtain ⟨e1, h1, h2⟩ := h
    obtain ⟨g1, g2, l, g3, g4⟩ := recorded_run h2
    rcases gps_step h1 with ⟨t, x, f, rfl, h⟩ | ⟨p, a, rfl, rfl⟩ | ⟨ha, _, hd⟩
    · obtain ⟨_, _, _, _, rfl⟩ := attemptGpsInit_form h
      exact ⟨by rw [g1]; simp [fixes], by rw [g2]; simp [fixes], e.state.body.pos :: l, by simp [fixes, g3],
        by rw [g4]; simp⟩
    · exact ⟨g1, g2, l, g3, g4⟩
    · simp only [Ekf.gpsData, Prod.mk.injEq] at hd
      rw [fixes_other ha]
      exact ⟨by rw [g1, hd.1], by rw [g2, hd.2.1], l, g3, by rw [g4, hd.2.2.1]⟩

/-- Every fix handed over is recorded, with its time, in order, and nothing else is. -/
theorem C19_recorded (N : Prim K) (p : EkfParams K) (ops : List (Op K)) (e : Ekf K) (h : run N (init N p) ops = .ok e) :
    e.gpsTimeVec = (fixes ops).map (·.1) ∧ e.gpsEcefVec = (fixes ops).map (·.2) ∧
    e.gpsXyzVec.length = (fixes ops).length := by
  obtain ⟨h1, h2, l, h3, h4⟩ := recorded_run h
  refine ⟨by simpa [init] using h1, by simpa [init] using h2, ?_⟩
  rw [h4, ← h3]; simp [init]

/-- Beside each fix the body position at the moment it was handed over is kept. -/
theorem C19_positions (N : Prim K) (p : EkfParams K) (before after : List (Op K)) (t : K) (x : V3 K)
    (fit : List (V3 K) → List (V3 K) → GpsFit K) (e : Ekf K)
    (h : run N (init N p) (before ++ .attemptGpsInit t x fit :: after) = .ok e) :
    ∃ b, run N (init N p) before = .ok b ∧ e.gpsXyzVec[(fixes before).length]? = some b.state.body.pos := by
  rw [run_append] at h
  simp only [bind_ok_iff] at h
  obtain ⟨b, hb, h⟩ := h
  refine ⟨b, hb, ?_⟩
  simp only [run, bind_ok_iff] at h
  obtain ⟨c, hc, h⟩ := h
  obtain ⟨_, _, l, _, h4⟩ := recorded_run h
  obtain ⟨_, _, _, _, rfl⟩ := attemptGpsInit_form hc
  have hl := (C19_recorded N p before b hb).2.2
  rw [h4, ← hl]
  simp

theorem config_run {N : Prim K} {p : EkfParams K} {ops : List (Op K)} {e : Ekf K} (h : run N (init N p) ops = .ok e) :
    SameConfig (init N p) e :=
  run_induct (P := fun _ => True) (R := SameConfig) SameConfig.refl (fun _ _ _ => SameConfig.trans)
    (fun _ _ _ _ => step_config) (fun _ _ => trivial) h

/-- The published reference changes only by an explicit setting or by a fix that completes the configured evidence, and
then to the values computed from the recorded fixes and body positions; a fix without sufficient evidence leaves it. -/
theorem C19_evidence (N : Prim K) (p : EkfParams K) (ops : List (Op K)) (e e' : Ekf K) (op : Op K)
    (h : run N (init N p) ops = .ok e) (hs : step N e op = .ok e') (hop : ∀ q a, op ≠ .setGpsReference q a) :
    (∃ t x fit, op = .attemptGpsInit t x fit ∧
      Evidence p (fixes (ops ++ [op])).length (fit e'.gpsXyzVec e'.gpsEcefVec) ∧
      e'.reference = ((fit e'.gpsXyzVec e'.gpsEcefVec).refPos, (fit e'.gpsXyzVec e'.gpsEcefVec).refAng, true)) ∨
    ((∀ t x fit, op = .attemptGpsInit t x fit →
      ¬ Evidence p (fixes (ops ++ [op])).length (fit e'.gpsXyzVec e'.gpsEcefVec)) ∧ e'.reference = e.reference) := by
  rcases gps_step hs with ⟨t, x, f, rfl, ha⟩ | ⟨q, a, rfl, _⟩ | ⟨ha, _, hd⟩
  · have h' : run N (init N p) (ops ++ [.attemptGpsInit t x f]) = .ok e' := by
      rw [run_append, h]; simp [run, hs]
    have hrec := C19_recorded N p _ e' h'
    have hcfg := config_run h
    have hlen : (fixes (ops ++ [.attemptGpsInit t x f])).length = e'.gpsTimeVec.length := by
      rw [hrec.1, List.length_map]
    have hty : e.gpsInitType = p.gpsInitType := hcfg.gpsInitType
    have hb : e.gpsInitBaselineDist = p.gpsInitBaselineDist := hcfg.gpsInitBaselineDist
    have hpt : e.gpsInitPosThresh = p.gpsInitPosThresh := hcfg.gpsInitPosThresh
    rw [hlen]
    unfold attemptGpsInit at ha
    dsimp only at ha
    split at ha
    · rename_i h4
      simp only [bind_ok_iff] at ha
      obtain ⟨b, hb', ha⟩ := ha
      unfold gpsAccept at hb'
      dsimp only at hb'
      rw [hty, hb, hpt] at hb'
      split at ha
      · rename_i hbt
        subst hbt
        cases ha
        refine .inl ⟨t, x, f, rfl, ⟨h4, ?_⟩, rfl⟩
        dsimp only [setGpsReference]
        split at hb'
        · rename_i hc
          rw [hc.1]; exact hc.2
        · split at hb'
          · rename_i hc
            split at hb'
            · cases hb'
            · rename_i a hang
              simp only [Except.ok.injEq, decide_eq_true_eq] at hb'
              rw [hc.1]; exact ⟨hc.2.1, hc.2.2, a, hang, hb'.1, hb'.2⟩
          · cases hb'
      · rename_i hbt
        have hbt : b = false := by simpa using hbt
        subst hbt
        cases ha
        refine .inr ⟨?_, rfl⟩
        intro t' x' f' heq hev
        cases heq
        dsimp only at hev
        unfold Evidence at hev
        split at hb'
        · cases hb'
        · rename_i hnb
          split at hb'
          · rename_i hc
            rw [hc.1] at hev
            obtain ⟨_, _, _, a, hang, h0, h1⟩ := hev
            rw [hang] at hb'
            simp only [Except.ok.injEq, decide_eq_false_iff_not] at hb'
            exact hb' ⟨h0, h1⟩
          · rename_i hne
            cases hpty : p.gpsInitType with
            | constant => rw [hpty] at hev; exact hev.2
            | baselineDist => rw [hpty] at hev; exact hnb ⟨hpty, hev.2⟩
            | errorThreshold => rw [hpty] at hev; exact hne ⟨hpty, hev.2.1, hev.2.2.1⟩
    · rename_i h4
      cases ha
      refine .inr ⟨fun t' x' f' heq hev => h4 hev.1, rfl⟩
  · exact absurd rfl (hop q a)
  · refine .inr ⟨fun t x f h => absurd h (ha t x f), ?_⟩
    simp only [Ekf.gpsData, Prod.mk.injEq] at hd
    exact hd.2.2.2

theorem constant_run {N : Prim K} {e e' : Ekf K} {ops : List (Op K)}
    (hops : ∀ op ∈ ops, ∀ q a, op ≠ .setGpsReference q a) (hc : e.gpsInitType = .constant)
    (h : run N e ops = .ok e') : e'.reference = e.reference := by
  refine (run_induct (P := fun op => ∀ q a, op ≠ .setGpsReference q a)
    (R := fun a b => a.gpsInitType = .constant → b.gpsInitType = .constant ∧ b.reference = a.reference)
    (fun _ h => ⟨h, rfl⟩) (fun a b c hab hbc ha => ?_) ?_ hops h hc).2
  · have h1 := hab ha
    have h2 := hbc h1.1
    exact ⟨h2.1, h2.2.trans h1.2⟩
  · intro a b op hop hs ha
    refine ⟨(step_config hs).gpsInitType.trans ha, ?_⟩
    rcases gps_step hs with ⟨t, x, f, rfl, hatt⟩ | ⟨q, r, rfl, _⟩ | ⟨_, _, hd⟩
    · unfold attemptGpsInit at hatt
      dsimp only at hatt
      split at hatt
      · simp only [gpsAccept, ha, reduceCtorEq, false_and, if_false, ok_bind, pure_res] at hatt
        cases hatt; rfl
      · cases hatt; rfl
    · exact absurd rfl (hop q r)
    · simp only [Ekf.gpsData, Prod.mk.injEq] at hd
      exact hd.2.2.2

/-- A constant reference is never overwritten by data: only an explicit setting changes it. -/
theorem C19_constant (N : Prim K) (p : EkfParams K) (hp : p.gpsInitType = .constant) (ops : List (Op K))
    (hops : ∀ op ∈ ops, ∀ q a, op ≠ .setGpsReference q a) (e : Ekf K) (h : run N (init N p) ops = .ok e) :
    e.posEInG = p.posEInG ∧ e.angLToE = p.angLToE ∧ e.isLlaInitialized = true := by
  have := constant_run hops hp h
  simp only [reference, Prod.mk.injEq] at this
  refine ⟨this.1, this.2.1, this.2.2.trans ?_⟩
  simp [init, hp]

theorem Via.reference {N : Prim K} {Q : Mat K → Prop} {a b : Ekf K} (h : Via N Q a b)
    (hl : a.isLlaInitialized = true) : b.reference = a.reference := by
  obtain ⟨ops, h1, h2, h3⟩ := h
  refine (run_induct (P := fun op => op.Inner Q ∧ ∀ t x f, Op.attemptGpsInit t x f ≠ op)
    (R := fun a b => b.reference = a.reference) (fun _ => rfl) (fun _ _ _ g h => h.trans g) ?_
    (fun op ho => ⟨h2 op ho, fun t x f h => h3 hl t x f (h ▸ ho)⟩) h1)
  rintro a b op ⟨hin, hna⟩ hs
  rcases gps_step hs with ⟨t, x, f, rfl, _⟩ | ⟨q, r, rfl, _⟩ | ⟨_, _, hd⟩
  · exact absurd rfl (hna t x f)
  · exact hin.elim
  · simp only [Ekf.gpsData, Prod.mk.injEq] at hd
    exact hd.2.2.2

/-- Once the reference is set (by configuration, call or data), no sequence of sensor messages changes it. -/
theorem C19_frozen (N : Num K) (G : GpsNum K) (s s' : Station K) (cs : List (Call K))
    (hcs : ∀ c ∈ cs, ∀ op, c ≠ .filter op) (hl : s.ekf.isLlaInitialized = true) (h : s.run N G cs = .ok s') :
    s'.ekf.reference = s.ekf.reference := by
  induction cs generalizing s with
  | nil => cases h; rfl
  | cons c cs ih =>
    simp only [Station.run, bind_ok_iff] at h
    obtain ⟨s1, h1, h2⟩ := h
    have hf : ∀ op, c ≠ .filter op := hcs c (by simp)
    have key : s1.ekf.reference = s.ekf.reference := by
      cases c with
      | filter op => exact absurd rfl (hf op)
      | newImu k id a b => simp only [Station.step, pure_res, Except.ok.injEq] at h1; subst h1; split <;> rfl
      | newGps k id a => simp only [Station.step, pure_res, Except.ok.injEq] at h1; subst h1; split <;> rfl
      | newFid k id a b d => simp only [Station.step, pure_res, Except.ok.injEq] at h1; subst h1; split <;> rfl
      | newCam k id a d => simp only [Station.step, pure_res, Except.ok.injEq] at h1; subst h1; split <;> rfl
      | imu k t a ac w wc =>
        simp only [Station.step] at h1
        split at h1
        · cases h1; rfl
        · simp only [bind_ok_iff, pure_res, Except.ok.injEq] at h1
          obtain ⟨r, h1, rfl⟩ := h1
          exact (ImuUpdater.update_via (Q := fun _ => True) h1 (fun _ _ => trivial) (fun _ _ => trivial)).reference hl
      | gps k t x v =>
        simp only [Station.step] at h1
        split at h1
        · cases h1; rfl
        · simp only [bind_ok_iff, pure_res, Except.ok.injEq] at h1
          obtain ⟨r, h1, rfl⟩ := h1
          exact (GpsUpdater.update_via (Q := fun _ => True) h1 (fun _ => trivial) trivial).reference hl
      | fid k t d =>
        simp only [Station.step] at h1
        split at h1
        · cases h1; rfl
        · simp only [bind_ok_iff, pure_res, Except.ok.injEq] at h1
          obtain ⟨r, h1, rfl⟩ := h1
          exact (FidUpdater.update_via (Q := fun _ => True) h1 (fun _ _ => trivial)).reference hl
      | cam k t i fs px =>
        simp only [Station.step] at h1
        split at h1
        · cases h1; rfl
        · simp only [bind_ok_iff, pure_res, Except.ok.injEq] at h1
          obtain ⟨r, h1, rfl⟩ := h1
          exact (MsckfUpdater.update_via (Q := fun _ => True) h1 (fun _ => trivial)).reference hl
    have hl1 : s1.ekf.isLlaInitialized = true := by
      simp only [reference, Prod.mk.injEq] at key
      rw [key.2.2]; exact hl
    rw [ih s1 (fun c hc => hcs c (by simp [hc])) hl1 h2, key]

/-- A message history of a filter with a constant reference. -/
theorem C19_constant_messages (N : Num K) (G : GpsNum K) (p : EkfParams K) (hp : p.gpsInitType = .constant)
    (cs : List (Call K)) (hcs : ∀ q a, Call.filter (.setGpsReference q a) ∉ cs) (s : Station K)
    (h : Station.run N G (Station.init N p) cs = .ok s) :
    s.ekf.posEInG = p.posEInG ∧ s.ekf.angLToE = p.angLToE ∧ s.ekf.isLlaInitialized = true := by
  obtain ⟨ops, h1, h2⟩ := Station.run_ops (P := fun op => ∀ q a, op ≠ .setGpsReference q a) (Q := fun _ => True)
    (fun op hin q a he => by subst he; exact hin)
    (fun c hc => by
      cases c with
      | filter op => intro q a he; exact hcs q a (he ▸ hc)
      | _ => simp [Call.Sends]) h
  exact C19_constant N.toPrim p hp ops h2 s.ekf h1

/-! ### Cases -/

/-- An evaluation whose baseline is ten times the number of fixes. -/
def sampleFit : List (V3 ℚ) → List (V3 ℚ) → GpsFit ℚ :=
  fun xs _ => ⟨true, 1 / 2, some (1 / 3), 10 * xs.length, 1, ![1, 2, 3], 4⟩

def sampleBaseline : EkfParams ℚ :=
  { Samples.params .none false with gpsInitType := .baselineDist, gpsInitBaselineDist := 45 }

/-- Up to four fixes are not enough (too few, then a baseline of 40), the fifth (baseline 50 > 45) sets the reference. -/
example : ∃ e4 e5, run Samples.prim (init Samples.prim sampleBaseline)
      ((List.range 4).map fun i => .attemptGpsInit i ![i, 0, 0] sampleFit) = .ok e4 ∧
    step Samples.prim e4 (.attemptGpsInit 4 ![4, 0, 0] sampleFit) = .ok e5 ∧
    e4.reference = (0, 0, false) ∧ e5.reference = (![1, 2, 3], 4, true) ∧ e5.gpsTimeVec = [0, 1, 2, 3, 4] := by
  let c : Res (Ekf ℚ × Ekf ℚ) := do
    let a ← run Samples.prim (init Samples.prim sampleBaseline)
      ((List.range 4).map fun i => .attemptGpsInit i ![i, 0, 0] sampleFit)
    let b ← step Samples.prim a (.attemptGpsInit 4 ![4, 0, 0] sampleFit)
    pure (a, b)
  obtain ⟨⟨a, b⟩, hc, h1, h2, h3⟩ := Samples.ok_of_check (r := c)
    (P := fun x => x.1.reference = (0, 0, false) ∧ x.2.reference = (![1, 2, 3], 4, true) ∧ x.2.gpsTimeVec = [0, 1, 2, 3, 4])
    (by decide +kernel)
  simp only [c, bind_ok_iff, pure_res, Except.ok.injEq, Prod.mk.injEq] at hc
  obtain ⟨_, g1, _, g2, rfl, rfl⟩ := hc
  exact ⟨_, _, g1, g2, h1, h2, h3⟩

/-- A history with a constant reference and data whose evaluation would pass any threshold. -/
example : ∃ e, run Samples.prim (init Samples.prim (Samples.params .none false))
      ((List.range 9).map fun i => .attemptGpsInit i ![i, 0, 0] sampleFit) = .ok e ∧ e.reference = (0, 0, true) ∧
    e.gpsEcefVec.length = 9 := by
  refine ⟨_, rfl, ?_, ?_⟩ <;> decide +kernel

end EkfCal
