import Verif.Model.Station
import Verif.Lemmas.Frame

/-!
# Every updater call is a sequence of filter calls
-/

set_option linter.unusedSimpArgs false
set_option linter.unusedSectionVars false

namespace EkfCal
open Ekf
variable {K : Type} [Field K] [LinearOrder K]

/-- The filter calls an updater makes; `Q` is what is known of the measurement noise. -/
def Ekf.Op.Inner (Q : Mat K → Prop) : Op K → Prop
  | .localTime _ => True
  | .predict _ => True
  | .getImu _ => True
  | .getGps _ => True
  | .getCam _ => True
  | .getAug _ _ _ => True
  | .initializeGravity => True
  | .setZeroAcceleration _ => True
  | .setBodyMotion _ _ _ => True
  | .attemptGpsInit _ _ _ => True
  | .kalman _ _ R => Q R
  | _ => False

/-- The filter `e'` is reached from `e` by calls an updater makes; none of them attempts a GPS initialisation once the
reference is set. -/
def Via (N : Prim K) (Q : Mat K → Prop) (e e' : Ekf K) : Prop :=
  ∃ ops, Ekf.run N e ops = .ok e' ∧ (∀ op ∈ ops, op.Inner Q) ∧
    (e.isLlaInitialized = true → ∀ t x f, Op.attemptGpsInit t x f ∉ ops)

theorem Via.refl {N : Prim K} {Q : Mat K → Prop} (e : Ekf K) : Via N Q e e := ⟨[], rfl, by simp, by simp⟩

theorem Via.trans {N : Prim K} {Q : Mat K → Prop} {a b c : Ekf K} (h : Via N Q a b) (g : Via N Q b c) : Via N Q a c := by
  obtain ⟨o1, h1, h2, h3⟩ := h
  obtain ⟨o2, g1, g2, g3⟩ := g
  refine ⟨o1 ++ o2, ?_, ?_, fun hl t x f hm => ?_⟩
  · rw [run_append, h1]; exact g1
  · intro op ho
    rcases List.mem_append.1 ho with ho | ho
    · exact h2 op ho
    · exact g2 op ho
  · rcases List.mem_append.1 hm with hm | hm
    · exact h3 hl t x f hm
    · exact g3 ((run_flags h1).2 hl) t x f hm

theorem Via.step {N : Prim K} {Q : Mat K → Prop} {a b : Ekf K} (op : Op K) (h : Ekf.step N a op = .ok b)
    (ho : op.Inner Q)
    (hn : a.isLlaInitialized = true → ∀ t x f, Op.attemptGpsInit t x f ≠ op := by intro _ _ _ _ h; cases h) :
    Via N Q a b :=
  ⟨[op], by simp [Ekf.run, h], by simpa using ho, fun hl t x f hm => hn hl t x f (List.mem_singleton.1 hm)⟩

theorem Via.mono {N : Prim K} {Q Q' : Mat K → Prop} {a b : Ekf K} (h : Via N Q a b) (hq : ∀ R, Q R → Q' R) :
    Via N Q' a b := by
  obtain ⟨o, h1, h2, h3⟩ := h
  refine ⟨o, h1, fun op ho => ?_, h3⟩
  have := h2 op ho
  cases op <;> first | exact this | exact hq _ this

theorem Via.predict {N : Prim K} {Q : Mat K → Prop} {a b : Ekf K} {t : K} (h : a.predict N t = .ok b) : Via N Q a b :=
  Via.step (.predict t) h trivial

theorem Via.kalman {N : Prim K} {Q : Mat K → Prop} {a b : Ekf K} {J R : Mat K} {r : Vec K}
    (h : a.kalmanUpdate N J r R = .ok b) (hq : Q R) : Via N Q a b :=
  Via.step (.kalman J r R) h hq

theorem Via.localTime {N : Prim K} {Q : Mat K → Prop} (a : Ekf K) (t : K) : Via N Q a (a.calculateLocalTime t).2 :=
  Via.step (.localTime t) rfl trivial

theorem Via.getImu {N : Prim K} {Q : Mat K → Prop} (a : Ekf K) (i : Nat) : Via N Q a (a.getImuState i).2 :=
  Via.step (.getImu i) rfl trivial

theorem Via.getGps {N : Prim K} {Q : Mat K → Prop} (a : Ekf K) (i : Nat) : Via N Q a (a.getGpsState i).2 :=
  Via.step (.getGps i) rfl trivial

theorem Via.getCam {N : Prim K} {Q : Mat K → Prop} (a : Ekf K) (i : Nat) : Via N Q a (a.getCamState i).2 :=
  Via.step (.getCam i) rfl trivial

theorem Via.getAug {N : Prim K} {Q : Mat K → Prop} {a : Ekf K} {c f : Nat} {t : K} {r : AugState K × Ekf K}
    (h : a.getAugState N c f t = .ok r) : Via N Q a r.2 :=
  Via.step (.getAug c f t) (by simp [Ekf.step, h]) trivial

theorem Via.body {N : Prim K} {Q : Mat K → Prop} (e : Ekf K) (a w α : V3 K) :
    Via N Q e { e with state := { e.state with body := { e.state.body with acc := a, angVel := w, angAcc := α } } } :=
  Via.step (.setBodyMotion a w α) rfl trivial

/-- What `ZeroAccelerationUpdate` did. -/
inductive ZeroOutcome (N : Num K) (u : ImuUpdater) (e : Ekf K) (t : K) (acc : V3 K) (accCov : M3 K) (omg : V3 K)
    (omgCov : M3 K) : Bool → ImuUpdater → Ekf K → Prop
  /-- motion had been detected before -/
  | late (hm : u.motionDetected = true) : ZeroOutcome N u e t acc accCov omg omgCov false u e
  /-- motion is detected now -/
  | moved (e0 : Ekf K) (jac noise : Mat K) (sc : K) (hm : u.motionDetected = false) (h0 : e0 = (e.getImuState u.id).2)
      (hj : u.zeroAccJacobian N e0 = .ok jac) (hn : u.zeroAccNoise accCov omgCov = .ok noise)
      (hs : ImuUpdater.score N e0 jac (u.zeroAccResidual e0 acc omg) noise = .ok sc)
      (hgt : e.motionDetectionChiSquared < sc) (hg : e.isGravityInitialized = true) :
      ZeroOutcome N u e t acc accCov omg omgCov false { u with motionDetected := true } e0
  /-- the stationary update is applied -/
  | still (e0 e1 e2 e3 : Ekf K) (jac jac' noise : Mat K) (sc : K) (hm : u.motionDetected = false)
      (h0 : e0 = (e.getImuState u.id).2)
      (hj : u.zeroAccJacobian N e0 = .ok jac) (hn : u.zeroAccNoise accCov omgCov = .ok noise)
      (hs : ImuUpdater.score N e0 jac (u.zeroAccResidual e0 acc omg) noise = .ok sc)
      (hle : sc ≤ e.motionDetectionChiSquared ∨ e.isGravityInitialized = false)
      (h1 : e1 = if sc < e.motionDetectionChiSquared then e0.initializeGravity else e0)
      (h2 : e1.predict N.toPrim t = .ok e2) (hj' : u.zeroAccJacobian N e2 = .ok jac')
      (h3 : e2.kalmanUpdate N.toPrim jac' (u.zeroAccResidual e0 acc omg) noise = .ok e3) :
      ZeroOutcome N u e t acc accCov omg omgCov true u
        { e3 with state := { e3.state with body := { e3.state.body with acc := gravity, angVel := 0, angAcc := 0 } } }

theorem ImuUpdater.zeroAccUpdate_form {N : Num K} {u : ImuUpdater} {e : Ekf K} {t : K} {acc : V3 K} {accCov : M3 K}
    {omg : V3 K} {omgCov : M3 K} {r : Bool × ImuUpdater × Ekf K}
    (h : u.zeroAccUpdate N e t acc accCov omg omgCov = .ok r) :
    ZeroOutcome N u e t acc accCov omg omgCov r.1 r.2.1 r.2.2 := by
  unfold zeroAccUpdate at h
  cases hm : u.motionDetected with
  | true =>
    simp only [hm, if_true, pure_res, Except.ok.injEq] at h
    subst h
    exact .late hm
  | false =>
    simp only [hm, Bool.false_eq_true, if_false, bind_ok_iff, pure_res, ok_bind] at h
    obtain ⟨jac, hj, noise, hn, sc, hs, h⟩ := h
    split at h
    · rename_i hc
      cases h
      exact .moved _ jac noise sc hm rfl hj hn hs hc.1 hc.2
    · rename_i hc
      simp only [bind_ok_iff, pure_res, Except.ok.injEq] at h
      obtain ⟨e2, h2, jac', hj', e3, h3, rfl⟩ := h
      refine .still _ _ e2 e3 jac jac' noise sc hm rfl hj hn hs ?_ rfl h2 hj' h3
      by_contra hcon
      push Not at hcon
      refine hc ⟨hcon.1, ?_⟩
      have : e.isGravityInitialized = true := by simpa using hcon.2
      exact this

theorem ImuUpdater.zeroAcc_via {N : Num K} {u : ImuUpdater} {e : Ekf K} {t : K} {acc : V3 K} {accCov : M3 K}
    {omg : V3 K} {omgCov : M3 K} {b : Bool} {u' : ImuUpdater} {e' : Ekf K} {Q : Mat K → Prop}
    (h : ZeroOutcome N u e t acc accCov omg omgCov b u' e')
    (hQ : ∀ R, u.zeroAccNoise accCov omgCov = .ok R → Q R) : Via N.toPrim Q e e' := by
  cases h with
  | late hm => exact Via.refl e
  | moved e0 jac noise sc hm h0 hj hn hs hgt hg => rw [h0]; exact Via.getImu e _
  | still e0 e1 e2 e3 jac jac' noise sc hm h0 hj hn hs hle h1 h2 hj' h3 =>
    refine Via.trans ?_ (Via.body e3 _ _ _)
    refine Via.trans ?_ (Via.kalman h3 (hQ _ hn))
    refine Via.trans ?_ (Via.predict h2)
    have g0 : Via N.toPrim Q e e0 := by rw [h0]; exact Via.getImu e _
    rw [h1]
    split
    · exact g0.trans (Via.step .initializeGravity rfl trivial)
    · exact g0

/-- What the ordinary IMU update (after the zero-motion test) did. -/
theorem ImuUpdater.update_form {N : Num K} {u : ImuUpdater} {e : Ekf K} {time : K} {acc : V3 K} {accCov : M3 K}
    {omg : V3 K} {omgCov : M3 K} {r : ImuUpdater × Ekf K} (h : u.update N e time acc accCov omg omgCov = .ok r) :
    ∃ b u' e1, ZeroOutcome N u (e.calculateLocalTime time).2 (e.calculateLocalTime time).1 acc accCov omg omgCov b u' e1 ∧
      r.1 = u' ∧
      ((b = true ∧ r.2 = e1.setZeroAcceleration true) ∨
       (b = false ∧ ∃ e2 e3, e2 = ((e1.setZeroAcceleration false).getImuState u'.id).2 ∧
        ((e2.state.imus.length = 1 ∧ e3 = { e2 with state := { e2.state with body := { e2.state.body with
            acc := (e2.state.body.ang.mul (u'.imuOf e2).ang).rotate (acc - (u'.imuOf e2).accBias)
            angVel := (e2.state.body.ang.mul (u'.imuOf e2).ang).rotate (omg - (u'.imuOf e2).omgBias)
            angAcc := 0 } } }) ∨
          (e2.state.imus.length ≠ 1 ∧ ∃ jac noise, u'.measurementJacobian e2 = .ok jac ∧
            measurementNoise accCov omgCov = .ok noise ∧
            e2.kalmanUpdate N.toPrim jac
              ⟨6, fun i => (Vec.of6 acc omg).get i - (u'.predictMeasurement e2).get i⟩ noise = .ok e3)) ∧
        e3.predict N.toPrim (e.calculateLocalTime time).1 = .ok r.2)) := by
  unfold update at h
  simp only [bind_ok_iff] at h
  obtain ⟨⟨b, u', e1⟩, hz, h⟩ := h
  refine ⟨b, u', e1, zeroAccUpdate_form hz, ?_⟩
  cases b with
  | true =>
    simp only [if_true, pure_res, Except.ok.injEq] at h
    subst h
    exact ⟨rfl, .inl ⟨rfl, rfl⟩⟩
  | false =>
    simp only [Bool.false_eq_true, if_false, pure_res, bind_ok_iff] at h
    split at h
    · rename_i hl
      simp only [ok_bind, bind_ok_iff, Except.ok.injEq, pure_res] at h
      obtain ⟨e3, h3, rfl⟩ := h
      exact ⟨rfl, .inr ⟨rfl, _, _, rfl, .inl ⟨hl, rfl⟩, h3⟩⟩
    · rename_i hl
      simp only [ok_bind, bind_ok_iff, Except.ok.injEq, pure_res] at h
      obtain ⟨jac, hj, noise, hn, e3, hk, e4, hp, rfl⟩ := h
      exact ⟨rfl, .inr ⟨rfl, _, e3, rfl, .inr ⟨hl, jac, noise, hj, hn, hk⟩, hp⟩⟩

theorem ImuUpdater.update_via {N : Num K} {u : ImuUpdater} {e : Ekf K} {time : K} {acc : V3 K} {accCov : M3 K}
    {omg : V3 K} {omgCov : M3 K} {r : ImuUpdater × Ekf K} {Q : Mat K → Prop}
    (h : u.update N e time acc accCov omg omgCov = .ok r)
    (hQ : ∀ R, u.zeroAccNoise accCov omgCov = .ok R → Q R)
    (hQ' : ∀ R, measurementNoise accCov omgCov = .ok R → Q R) : Via N.toPrim Q e r.2 := by
  obtain ⟨b, u', e1, hz, _, h⟩ := update_form h
  have g1 : Via N.toPrim Q e e1 := (Via.localTime e time).trans (zeroAcc_via hz hQ)
  rcases h with ⟨_, h⟩ | ⟨_, e2, e3, h2, h3, h4⟩
  · rw [h]
    exact g1.trans (Via.step (.setZeroAcceleration true) rfl trivial)
  · have g2 : Via N.toPrim Q e e2 := by
      rw [h2]
      exact g1.trans ((Via.step (.setZeroAcceleration false) rfl trivial).trans (Via.getImu _ _))
    refine Via.trans ?_ (Via.predict h4)
    rcases h3 with ⟨_, h3⟩ | ⟨_, jac, noise, _, hn, hk⟩
    · rw [h3]
      exact g2.trans (Via.body e2 _ _ _)
    · exact g2.trans (Via.kalman hk (hQ' _ hn))

/-! ## GPS -/

theorem GpsUpdater.multiUpdate_via {N : Num K} {G : GpsNum K} {u : GpsUpdater K} {e : Ekf K}
    {r : GpsUpdater K × Ekf K} {Q : Mat K → Prop} (h : u.multiUpdate N G e = .ok r)
    (hQ : ∀ n, Q (Mat.identity n n)) : Via N.toPrim Q e r.2 := by
  unfold multiUpdate at h
  simp only [bind_ok_iff, pure_res, ok_bind] at h
  obtain ⟨⟨u1, jac, resid⟩, _, ⟨jac', resid'⟩, _, h⟩ := h
  dsimp only at h
  split at h
  · cases h; exact Via.getGps e _
  · simp only [bind_ok_iff, Except.ok.injEq] at h
    obtain ⟨e2, hk, rfl⟩ := h
    exact (Via.getGps e _).trans (Via.kalman hk (hQ _))

theorem GpsUpdater.update_via {N : Num K} {G : GpsNum K} {u : GpsUpdater K} {e : Ekf K} {time : K} {lla : V3 K}
    {cov : Mat K} {r : GpsUpdater K × Ekf K} {Q : Mat K → Prop} (h : u.update N G e time lla cov = .ok r)
    (hQ : ∀ n, Q (Mat.identity n n)) (hQ' : Q cov) : Via N.toPrim Q e r.2 := by
  unfold update at h
  simp only [bind_ok_iff] at h
  obtain ⟨e1, h1, h⟩ := h
  have g1 : Via N.toPrim Q e e1 := (Via.localTime e time).trans (Via.predict h1)
  split at h
  · simp only [bind_ok_iff] at h
    obtain ⟨x, _, e2, h2, h⟩ := h
    have g2 : Via N.toPrim Q e e2 := g1.trans (Via.step (.attemptGpsInit _ _ _) h2 trivial fun hl => by simp_all)
    split at h
    · exact g2.trans (multiUpdate_via h hQ)
    · cases h; exact g2
  · simp only [bind_ok_iff, pure_res, Except.ok.injEq] at h
    obtain ⟨x, _, ⟨jac, u1⟩, _, e2, hk, rfl⟩ := h
    exact g1.trans ((Via.getGps _ _).trans (Via.kalman hk hQ'))

theorem GpsUpdater.refresh_idem (u : GpsUpdater K) (e : Ekf K) : (u.refresh e).refresh e = u.refresh e := by
  obtain ⟨id, ext, first, pos⟩ := u
  unfold refresh
  cases first <;> cases e.useFirstEstimate <;> rfl

theorem GpsUpdater.multiLoop_updater {N : Num K} {G : GpsNum K} {e : Ekf K} : ∀ {xs ps : List (V3 K)} {i : Nat}
    {u : GpsUpdater K} {J : Mat K} {v : Vec K} {r : GpsUpdater K × Mat K × Vec K},
    multiLoop N G e i xs ps u J v = .ok r → r.1 = if xs = [] then u else u.refresh e
  | [], ps, i, u, J, v, r, h => by cases h; rfl
  | x :: xs, [], i, u, J, v, r, h => by cases h
  | x :: xs, p :: ps, i, u, J, v, r, h => by
    simp only [multiLoop, bind_ok_iff, measurementJacobian, pure_res] at h
    obtain ⟨loc, _, ⟨row, u1⟩, h2, J', _, _, _, h⟩ := h
    simp only [Except.ok.injEq, Prod.mk.injEq] at h2
    obtain ⟨row', _, _, rfl⟩ := h2
    have := multiLoop_updater h
    rw [this]
    simp only [reduceCtorEq, if_false, refresh_idem, ite_self]

/-- What a fix did: before the reference is known it is only recorded (and the first fixes are applied together when it
becomes known); afterwards it is an ordinary update at the linearisation point chosen by `refresh`. -/
theorem GpsUpdater.update_form {N : Num K} {G : GpsNum K} {u : GpsUpdater K} {e : Ekf K} {time : K} {lla : V3 K}
    {cov : Mat K} {r : GpsUpdater K × Ekf K} (h : u.update N G e time lla cov = .ok r) :
    ∃ e1, (e.calculateLocalTime time).2.predict N.toPrim (e.calculateLocalTime time).1 = .ok e1 ∧
      ((e1.isLlaInitialized = false ∧ ∃ x e2, G.llaToEcef lla = .ok x ∧
          e1.attemptGpsInit (e.calculateLocalTime time).1 x G.fit = .ok e2 ∧
          ((e2.isLlaInitialized = true ∧ u.multiUpdate N G e2 = .ok r) ∨ (e2.isLlaInitialized = false ∧ r = (u, e2)))) ∨
       (e1.isLlaInitialized = true ∧ ∃ e2 enu jac, e2 = (e1.getGpsState u.id).2 ∧ G.llaToEnu lla e2.posEInG = .ok enu ∧
          r.1 = u.refresh e2 ∧ r.1.jacobianOf N e2 = .ok jac ∧
          e2.kalmanUpdate N.toPrim jac (Vec.of3 (G.enuToLocal enu e2.angLToE -
            (e2.state.body.pos + e2.state.body.ang.rotate r.1.posAInB))) cov = .ok r.2)) := by
  unfold update at h
  simp only [bind_ok_iff] at h
  obtain ⟨e1, h1, h⟩ := h
  refine ⟨e1, h1, ?_⟩
  split at h
  · rename_i hl
    simp only [bind_ok_iff] at h
    obtain ⟨x, hx, e2, h2, h⟩ := h
    refine .inl ⟨hl, x, e2, hx, h2, ?_⟩
    split at h
    · rename_i hl2; exact .inl ⟨hl2, h⟩
    · rename_i hl2; cases h; exact .inr ⟨by simpa using hl2, rfl⟩
  · rename_i hl
    simp only [bind_ok_iff, pure_res, Except.ok.injEq, measurementJacobian, predictMeasurement, refresh_idem] at h
    obtain ⟨x, hx, ⟨jac, u1⟩, h2, e2, hk, rfl⟩ := h
    obtain ⟨j', hj, he⟩ := h2
    cases he
    exact .inr ⟨by simpa using hl, _, x, jac, rfl, hx, rfl, hj, hk⟩

theorem GpsUpdater.multiUpdate_updater {N : Num K} {G : GpsNum K} {u : GpsUpdater K} {e : Ekf K}
    {r : GpsUpdater K × Ekf K} (h : u.multiUpdate N G e = .ok r) :
    r.1 = if e.gpsEcefVec = [] then u else u.refresh (e.getGpsState u.id).2 := by
  unfold multiUpdate at h
  simp only [bind_ok_iff, pure_res, ok_bind] at h
  obtain ⟨⟨u1, jac, resid⟩, h1, ⟨jac', resid'⟩, _, h⟩ := h
  have := multiLoop_updater h1
  dsimp only at h this
  split at h
  · cases h; exact this
  · simp only [bind_ok_iff, Except.ok.injEq] at h
    obtain ⟨e2, hk, rfl⟩ := h
    exact this

/-! ## Fiducials -/

theorem FidUpdater.update_via {N : Num K} {u : FidUpdater K} {e : Ekf K} {time : K} {d : BoardDetection K}
    {r : FidUpdater K × Ekf K} {Q : Mat K → Prop} (h : u.update N e time d = .ok r)
    (hQ : ∀ R, noiseOf d = .ok R → Q R) : Via N.toPrim Q e r.2 := by
  unfold update at h
  simp only [bind_ok_iff] at h
  obtain ⟨e1, h1, h⟩ := h
  split at h
  · cases h
  · simp only [bind_ok_iff, pure_res, Except.ok.injEq] at h
    obtain ⟨jac, _, noise, hn, e2, hk, rfl⟩ := h
    exact (Via.localTime e time).trans ((Via.predict h1).trans ((Via.getCam _ _).trans (Via.kalman hk (hQ _ hn))))

theorem FidUpdater.update_form {N : Num K} {u : FidUpdater K} {e : Ekf K} {time : K} {d : BoardDetection K}
    {r : FidUpdater K × Ekf K} (h : u.update N e time d = .ok r) :
    ∃ e1 e2 f jac noise, (e.calculateLocalTime time).2.predict N.toPrim (e.calculateLocalTime time).1 = .ok e1 ∧
      e2 = (e1.getCamState u.cameraId).2 ∧ e2.state.fids.find? u.id = some f ∧ r.1 = u.refresh e2 f ∧
      r.1.jacobianOf N e2 f = .ok jac ∧ noiseOf d = .ok noise ∧
      e2.kalmanUpdate N.toPrim jac (Vec.of6 (d.pos - (r.1.predictOf N e2).1)
        (N.quatToRotVec ((N.rotVecToQuat (r.1.predictOf N e2).2).mul d.ang.inverse))) noise = .ok r.2 := by
  unfold update at h
  simp only [bind_ok_iff] at h
  obtain ⟨e1, h1, h⟩ := h
  split at h
  · cases h
  · rename_i f hf
    simp only [bind_ok_iff, pure_res, Except.ok.injEq] at h
    obtain ⟨jac, hj, noise, hn, e2, hk, rfl⟩ := h
    exact ⟨e1, _, f, jac, noise, h1, rfl, hf, rfl, hj, hn, hk⟩

/-! ## Cameras -/

theorem MsckfUpdater.triangulateLoop_via {N : Num K} {u : MsckfUpdater K} {a0 : AugState K} {Q : Mat K → Prop}
    {ps : List (FeaturePoint K)} : ∀ {e : Ekf K} {A : M3 K} {b : V3 K} {r : M3 K × V3 K × Ekf K},
    u.triangulateLoop N a0 ps e A b = .ok r → Via N.toPrim Q e r.2.2 := by
  induction ps with
  | nil => intro e A b r h; cases h; exact Via.refl e
  | cons p ps ih =>
    intro e A b r h
    simp only [triangulateLoop, bind_ok_iff] at h
    obtain ⟨⟨ai, e1⟩, h1, h2⟩ := h
    exact Via.trans (Via.getAug h1) (ih h2)

theorem MsckfUpdater.triangulate_via {N : Num K} {u : MsckfUpdater K} {e : Ekf K} {f : FeatureTrack K}
    {Q : Mat K → Prop} {r : Bool × Option (V3 K) × Ekf K} (h : u.triangulate N e f = .ok r) :
    Via N.toPrim Q e r.2.2 := by
  unfold triangulate at h
  split at h
  · cases h
  · simp only [bind_ok_iff] at h
    obtain ⟨⟨a0, e1⟩, h1, ⟨A, b, e2⟩, h2, h⟩ := h
    have g : Via N.toPrim Q e e2 := Via.trans (Via.getAug h1) (triangulateLoop_via h2)
    dsimp only at h
    split at h <;> split at h <;> (cases h; exact g)

theorem MsckfUpdater.observeLoop_via {N : Num K} {u : MsckfUpdater K} {n c : Nat} {posF : V3 K} {Q : Mat K → Prop}
    {ps : List (FeaturePoint K)} : ∀ {i : Nat} {e : Ekf K} {s : Mat K × Mat K × Vec K}
    {r : Ekf K × Mat K × Mat K × Vec K}, u.observeLoop N n c posF i ps e s = .ok r → Via N.toPrim Q e r.1 := by
  induction ps with
  | nil => intro i e s r h; cases h; exact Via.refl e
  | cons p ps ih =>
    intro i e s r h
    simp only [observeLoop, bind_ok_iff] at h
    obtain ⟨⟨a, e1⟩, h1, s1, _, h2⟩ := h
    exact Via.trans (Via.getAug h1) (ih h2)

theorem MsckfUpdater.featureLoop_via {N : Num K} {u : MsckfUpdater K} {n c : Nat} {Q : Mat K → Prop}
    {fs : List (FeatureTrack K)} : ∀ {e : Ekf K} {ct : Nat} {H : Mat K} {v : Vec K} {r : Ekf K × Nat × Mat K × Vec K},
    u.featureLoop N n c fs e ct H v = .ok r → Via N.toPrim Q e r.1 := by
  induction fs with
  | nil => intro e ct H v r h; cases h; exact Via.refl e
  | cons f fs ih =>
    intro e ct H v r h
    simp only [featureLoop, bind_ok_iff] at h
    obtain ⟨⟨ok, posF, e1⟩, h1, h⟩ := h
    have g1 : Via N.toPrim Q e e1 := triangulate_via h1
    dsimp only at h
    split at h
    · exact g1.trans (ih h)
    · split at h
      · cases h
      · simp only [bind_ok_iff] at h
        obtain ⟨⟨e2, Hf, Hc, res⟩, h2, ⟨Hc', res'⟩, _, H', _, _, _, h⟩ := h
        exact g1.trans ((observeLoop_via h2).trans (ih h))

theorem MsckfUpdater.process_via {N : Num K} {u : MsckfUpdater K} {e e' : Ekf K}
    {fs : List (FeatureTrack K)} {px : K} {Q : Mat K → Prop} (h : u.process N e fs px = .ok e')
    (hQ : ∀ n, Q ((Mat.identity n n).smul (max px (1 / 2) * max px (1 / 2)))) : Via N.toPrim Q e e' := by
  unfold process at h
  simp only [bind_ok_iff, ok_bind, pure_res] at h
  obtain ⟨⟨e2, ct, H, v⟩, h2, h⟩ := h
  have g2 : Via N.toPrim Q e e2 := featureLoop_via h2
  dsimp only at h
  split at h
  · cases h; exact g2
  · simp only [bind_ok_iff, ok_bind] at h
    obtain ⟨⟨H', v'⟩, _, h⟩ := h
    dsimp only at h
    split at h
    · cases h; exact g2
    · exact g2.trans (Via.kalman h (hQ _))

theorem MsckfUpdater.update_form {N : Num K} {u : MsckfUpdater K} {e : Ekf K} {time : K} {intr : Intrinsics K}
    {fs : List (FeatureTrack K)} {px : K} {r : MsckfUpdater K × Ekf K} (h : u.update N e time intr fs px = .ok r) :
    ∃ e1, (e.calculateLocalTime time).2.predict N.toPrim (e.calculateLocalTime time).1 = .ok e1 ∧
      ((fs = [] ∧ r = (u, e1)) ∨
       (fs ≠ [] ∧ ∃ e2, e2 = (e1.getCamState u.id).2 ∧ r.1 = u.refresh e2 intr ∧ r.1.process N e2 fs px = .ok r.2)) := by
  unfold update at h
  simp only [bind_ok_iff, pure_res] at h
  obtain ⟨e1, h1, h⟩ := h
  refine ⟨e1, h1, ?_⟩
  split at h
  · rename_i hf
    cases h; exact .inl ⟨hf, rfl⟩
  · rename_i hf
    simp only [bind_ok_iff, Except.ok.injEq] at h
    obtain ⟨e3, h2, rfl⟩ := h
    exact .inr ⟨hf, _, rfl, rfl, h2⟩

theorem MsckfUpdater.update_via {N : Num K} {u : MsckfUpdater K} {e : Ekf K} {time : K} {intr : Intrinsics K}
    {fs : List (FeatureTrack K)} {px : K} {r : MsckfUpdater K × Ekf K} {Q : Mat K → Prop}
    (h : u.update N e time intr fs px = .ok r)
    (hQ : ∀ n, Q ((Mat.identity n n).smul (max px (1 / 2) * max px (1 / 2)))) : Via N.toPrim Q e r.2 := by
  obtain ⟨e1, h1, h⟩ := update_form h
  have g1 : Via N.toPrim Q e e1 := (Via.localTime e time).trans (Via.predict h1)
  rcases h with ⟨_, rfl⟩ | ⟨_, e2, h2, _, h⟩
  · exact g1
  · rw [h2] at h
    exact g1.trans ((Via.getCam _ _).trans (process_via h hQ))

end EkfCal
