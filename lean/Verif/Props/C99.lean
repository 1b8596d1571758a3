import Verif.Spec.Remembered
import Verif.Props.C07
import Verif.Props.C98

/-!
# C99 — until time passes, the pose remembered for an image is the pose of the body
-/

set_option linter.unusedSectionVars false

namespace EkfCal
open Ekf Finset
variable {K : Type} [Field K]

/-- Rows of a matrix that are equal give equal rows of gain and correction. -/
theorem poseRow_lt {k : Nat} (hk : k < 6) : poseRow k < 12 := by unfold poseRow; split_ifs <;> omega

variable [LinearOrder K]

/-- A prediction to a time that is reached. -/
theorem predict_reached {N : Prim K} (h0 : N.rotVecToQuat 0 = Quat.one) {e e' : Ekf K} (hi : Inv e) (hr : e.useRoot = false)
    (hu : ¬ AugType.Timed e.augType) {t : K} (ht : t ≤ e.currentTime) (h : Ekf.predict N e t = .ok e') :
    e' = { e with cov := e'.cov } ∧ ∀ i j, i < e.stateSize → j < e.stateSize → e'.cov.get i j = e.cov.get i j := by
  obtain ⟨_, rfl⟩ | ⟨t1, b, out, hb, h⟩ := predict_form h
  · exact ⟨rfl, fun _ _ _ _ => rfl⟩
  obtain rfl := le_antisymm ht t1
  obtain ⟨_, rfl⟩ | ⟨hx, _⟩ := augmentTimed_form h
  swap; · exact absurd hx hu
  obtain ⟨_, rfl, rfl⟩ | ⟨_, rfl, ho⟩ := hb
  · exact ⟨rfl, fun _ _ _ _ => rfl⟩
  · have hbody : predictBody N e.isZeroAcceleration e.state.body (e.currentTime - e.currentTime) = e.state.body := by
      have hv : (![e.state.body.angVel 0 * 0, e.state.body.angVel 1 * 0, e.state.body.angVel 2 * 0] : V3 K) = 0 := by
        funext i; fin_cases i <;> simp
      have hq : ∀ q : Quat K, Quat.one.mul q = q := fun q => by ext <;> simp [Quat.mul, Quat.one]
      simp only [predictBody, sub_self, zero_smul, add_zero, hv, h0, hq]
    have h18 : 18 ≤ e.cov.rows := by rw [hi.covRows, hi.size]; unfold State.dim; omega
    obtain ⟨out', o1, _, _, o4⟩ := predictCov_spec N e.cov e.processNoise (e.currentTime - e.currentTime)
      (hi.covRows.trans hi.covCols.symm) h18 (hi.noiseRows.trans hi.covRows.symm) (hi.noiseCols.trans hi.covRows.symm)
    rw [hr, ← hi.covRows] at ho
    obtain rfl := Except.ok.inj (o1.symm.trans ho)
    refine ⟨by rw [hbody], fun i j hi' hj' => ?_⟩
    rw [← hi.covRows] at hi' hj'
    show out'.get i j = _
    rw [o4 i j hi' hj', sub_self]
    simp [congr, transition, hi', hj']

theorem P_standard {e : Ekf K} (hr : e.useRoot = false) : e.P = e.cov.get := by funext i j; simp [Ekf.P, hr]

/-- Two rows and columns of a covariance that are equal stay equal in a correction. -/
theorem joseph_same {m h p q j : Nat} (hp : p < m) (hq : q < m) {P G H R T : Nat → Nat → K}
    (hT : ∀ i l, T i l = (if i = l then 1 else 0) - ∑ x ∈ range h, G i x * H x l)
    (hP : ∀ l, l < m → P p l = P q l ∧ P l p = P l q) (hG : ∀ x, G p x = G q x) :
    congr m T P p j + congr h G R p j = congr m T P q j + congr h G R q j ∧
    congr m T P j p + congr h G R j p = congr m T P j q + congr h G R j q := by
  have one : ∀ (i : Nat) (w : Nat → K), i < m → ∑ l ∈ range m, T i l * w l = w i - ∑ l ∈ range m, (∑ x ∈ range h, G i x * H x l) * w l := by
    intro i w hi
    simp only [hT, sub_mul, sum_sub_distrib, ite_mul, one_mul, zero_mul, sum_ite_eq, mem_range, hi, if_true]
  have key : ∀ w : Nat → K, w p = w q → ∑ l ∈ range m, T p l * w l = ∑ l ∈ range m, T q l * w l := by
    intro w hw
    rw [one p w hp, one q w hq, hw]
    simp only [hG]
  constructor
  · congr 1
    · have e1 : ∀ i, congr m T P i j = ∑ l ∈ range m, T i l * ∑ y ∈ range m, P l y * T j y := fun i =>
        sum_congr rfl fun l _ => by rw [mul_sum]; exact sum_congr rfl fun y _ => by ring
      rw [e1, e1]
      exact key _ (sum_congr rfl fun y hy => by rw [(hP y (mem_range.1 hy)).1])
    · simp only [congr, hG]
  · congr 1
    · have e1 : ∀ i, congr m T P j i = ∑ l ∈ range m, T i l * ∑ y ∈ range m, T j y * P y l := fun i => by
        unfold congr
        rw [sum_comm]
        exact sum_congr rfl fun l _ => by rw [mul_sum]; exact sum_congr rfl fun y _ => by ring
      rw [e1, e1]
      exact key _ (sum_congr rfl fun y hy => by rw [(hP y (mem_range.1 hy)).2])
    · simp only [congr, hG]

/-- A correction moves the remembered pose and the body alike. -/
theorem remembers_corrected {N : Prim K} {e e' : Ekf K} {cam : Nat} {H R : Mat K} {r : Vec K} {G B : Nat → Nat → K} (hi : Inv e)
    (hm : e.RemembersPose cam)
    (hG : ∀ i x, G i x = ∑ b ∈ range H.rows, (∑ k ∈ range e.cov.rows, e.P i k * H.get b k) * B b x)
    (hs : e.state.addVec N (correction e.cov.rows H G r) = .ok e'.state) (hz : e'.stateSize = e.stateSize)
    (hP : ∀ i j, i < e.cov.rows → j < e.cov.rows → e'.P i j = joseph e.cov.rows e.P H R G i j) : e'.RemembersPose cam := by
  obtain ⟨a, m1, m2, m3, m4⟩ := hm
  have hb := clone_bounds hi.tiles (List.mem_of_getLast? m1)
  have b0 : e.state.body.index = 0 := hi.tiles.1
  have hn := hi.covRows
  rw [State.addVec_moved N _ _ e.stateSize hi.tiles (by rw [← hn]; exact le_refl _)] at hs
  have hs := Except.ok.inj hs
  have hG' : ∀ k x, k < 6 → G (a.index + k) x = G (poseRow k) x := by
    intro k x hk
    rw [hG, hG]
    refine sum_congr rfl fun b _ => ?_
    congr 1
    refine sum_congr rfl fun j hj => ?_
    rw [(m4 k j hk (by rw [← hn]; exact mem_range.1 hj)).1]
  generalize hv : correction e.cov.rows H G r = v at hs
  have hg : ∀ k, k < 6 → v.get (a.index + k) = v.get (poseRow k) := fun k hk => by
    rw [← hv]; unfold correction; dsimp only; exact sum_congr rfl fun x _ => by rw [hG' k x hk]
  have t0 : v.at3 a.index = v.at3 0 := by
    unfold Vec.at3
    have h0 := hg 0 (by omega)
    have h1 := hg 1 (by omega)
    have h2 := hg 2 (by omega)
    simp only [poseRow, add_zero] at h0 h1 h2
    rw [h0, h1, h2]; rfl
  have t3 : v.at3 (a.index + 3) = v.at3 9 := by
    unfold Vec.at3
    have h0 := hg 3 (by omega)
    have h1 := hg 4 (by omega)
    have h2 := hg 5 (by omega)
    simp only [poseRow] at h0 h1 h2
    rw [h0, add_assoc, h1, add_assoc, h2]; rfl
  refine ⟨a.moved N v, ?_, ?_, ?_, fun k j hk hj => ?_⟩
  · unfold window
    rw [← hs]
    show (UMap.getD (UMap.mapVal (List.map (AugState.moved N v)) e.state.augs) cam []).getLast? = _
    unfold UMap.getD
    rw [UMap.find?_mapVal]
    unfold window UMap.getD at m1
    cases hf : UMap.find? e.state.augs cam with
    | none => rw [hf] at m1; simp at m1
    | some w => rw [hf] at m1; simp only [Option.map_some, Option.getD_some] at m1 ⊢; rw [List.getLast?_map, m1]; rfl
  · rw [← hs]
    show a.pos + v.at3 a.index = e.state.body.pos + v.at3 e.state.body.index
    rw [m2, b0, t0]
  · rw [← hs]
    show a.ang.moved N (v.at3 (a.index + 3)) = e.state.body.ang.moved N (v.at3 (e.state.body.index + 9))
    rw [m3, b0, t3, Nat.zero_add]
  · have hp := poseRow_lt hk
    rw [hz] at hj
    show e'.P (a.index + k) j = e'.P (poseRow k) j ∧ e'.P j (a.index + k) = e'.P j (poseRow k)
    rw [hP _ _ (by omega) (by omega), hP _ _ (by omega) (by omega), hP _ _ (by omega) (by omega), hP _ _ (by omega) (by omega)]
    exact joseph_same (by omega) (by omega) (fun _ _ => rfl) (fun l hl => m4 k l hk (by omega)) fun x => hG' k x hk

theorem remembers_kalman {N : Prim K} {e e' : Ekf K} {cam : Nat} {H : Mat K} {r : Vec K} {R : Mat K} (hi : Inv e) (hr : e.useRoot = false)
    (hm : e.RemembersPose cam) (h : kalmanUpdate N e H r R = .ok e') : e'.RemembersPose cam := by
  obtain ⟨_, G, s, c, rfl, _, _, g1, g2, _, _, g3⟩ := kalman_std hr h
  refine remembers_corrected (B := N.inv (innovationOf e.cov H R)) (G := G.get) (R := R) hi hm ?_ g2 rfl fun i j _ _ => ?_
  · rw [P_standard hr]; exact g1
  · rw [P_standard hr, P_standard (by exact hr)]; exact g3 i j

variable [IsStrictOrderedRing K]

theorem remembers_root {N : Prim K} (hN : N.Lawful) {e e' : Ekf K} {cam : Nat} {H : Mat K} {r : Vec K} {R : Mat K} (hi : Inv e) (hr : e.useRoot = true)
    (hR : Op.Independent (.kalman H r R)) (hm : e.RemembersPose cam) (h : kalmanUpdate N e H r R = .ok e') : e'.RemembersPose cam := by
  obtain ⟨r1, r2, Ri, r3⟩ := hR
  have hM : Measured N e H r R e' := ⟨fun hx => absurd (hr.symm.trans hx) Bool.noConfusion, r1, fun _ => r2, h⟩
  obtain ⟨B, hB⟩ := C86_innovation N e e' H r R hM Ri r3
  obtain ⟨g1, _, _, g4⟩ := measured_form N hN e e' H r R hM B hB
  obtain ⟨_, _, _, hx, _⟩ := kalmanUpdate_form' h
  exact remembers_corrected (B := B) hi hm (fun _ _ => rfl) g1 (by rw [hx]) g4

/-- A prediction to a time that is reached, in square-root form. -/
theorem predict_reached_root {N : Prim K} (hN : N.Lawful) (h0 : N.rotVecToQuat 0 = Quat.one) {e e' : Ekf K} (hi : Inv e) (hr : e.useRoot = true)
    (hu : ¬ AugType.Timed e.augType) {t : K} (ht : t ≤ e.currentTime) (h : Ekf.predict N e t = .ok e') :
    e' = { e with cov := e'.cov } ∧ ∀ i j, i < e.stateSize → j < e.stateSize → e'.P i j = e.P i j := by
  have h' := h
  obtain ⟨_, rfl⟩ | ⟨t1, b, out, hb, h⟩ := predict_form h
  · exact ⟨rfl, fun _ _ _ _ => rfl⟩
  obtain rfl := le_antisymm ht t1
  obtain ⟨_, rfl⟩ | ⟨hx, _⟩ := augmentTimed_form h
  swap; · exact absurd hx hu
  obtain ⟨_, rfl, rfl⟩ | ⟨hg, _, _⟩ := hb
  · exact ⟨rfl, fun _ _ _ _ => rfl⟩
  · obtain ⟨c, c1, c2, _, _, c5⟩ := predict_root N hN.qr hN.sqrt e hi hr hg
      ⟨fun hx => hu (.inl hx), fun hx => hu (.inr hx)⟩ e.currentTime le_rfl
    have hbody : predictBody N e.isZeroAcceleration e.state.body (e.currentTime - e.currentTime) = e.state.body := by
      have hv : (![e.state.body.angVel 0 * 0, e.state.body.angVel 1 * 0, e.state.body.angVel 2 * 0] : V3 K) = 0 := by
        funext i; fin_cases i <;> simp
      have hq : ∀ q : Quat K, Quat.one.mul q = q := fun q => by ext <;> simp [Quat.mul, Quat.one]
      simp only [predictBody, sub_self, zero_smul, add_zero, hv, h0, hq]
    rw [c1] at h'
    rw [← Except.ok.inj h', hbody]
    refine ⟨rfl, fun i j hi' hj' => ?_⟩
    rw [← hi.covRows] at hi' hj'
    have e1 : e.P i j = gram e.cov i j := by simp [Ekf.P, hr]
    have e2 : Ekf.P { e with cov := c } i j = gram c i j := by simp [Ekf.P, hr]
    refine e2.trans ?_
    rw [e1, c5 i j hi' hj', sub_self, zero_mul, add_zero]
    have e3 : ∀ i j, rootMoved 0 e.cov.get i j = e.cov.get i j := fun i j => by simp [rootMoved]
    simp only [gram, e3]

/-- A filter with the same windows, body, covariance and size. -/
theorem remembers_same {e e' : Ekf K} {cam : Nat} (hm : e.RemembersPose cam) (hw : e'.window cam = e.window cam)
    (hb : e'.state.body.pos = e.state.body.pos ∧ e'.state.body.ang = e.state.body.ang) (hz : e'.stateSize = e.stateSize)
    (hP : e'.useRoot = e.useRoot ∧ e'.cov = e.cov) : e'.RemembersPose cam := by
  obtain ⟨a, m1, m2, m3, m4⟩ := hm
  have : e'.P = e.P := by unfold Ekf.P; rw [hP.1, hP.2]
  exact ⟨a, by rw [hw, m1], by rw [hb.1, m2], by rw [hb.2, m3], by rw [hz, this]; exact m4⟩

/-- Calls that take no time. -/
theorem remembers_step {N : Prim K} {e0 e e' : Ekf K} {cam : Nat} {op : Op K} (ho : op.AtOnce e0)
    (hi : Inv e) (hr : e.useRoot = true → N.Lawful ∧ op.Independent)
    (hu : ∀ s, op = .predict s → s < e0.currentTime ∨ (N.rotVecToQuat 0 = Quat.one ∧ ¬ AugType.Timed e0.augType))
    (ht : e0.currentTime ≤ e.currentTime) (hc : e.augType = e0.augType ∧ e.primaryCameraId = e0.primaryCameraId ∧ e.timeInitialized = e0.timeInitialized) (hm : e.RemembersPose cam)
    (h : step N e op = .ok e') :
    Inv e' ∧ e'.useRoot = e.useRoot ∧ e0.currentTime ≤ e'.currentTime ∧
      (e'.augType = e0.augType ∧ e'.primaryCameraId = e0.primaryCameraId ∧ e'.timeInitialized = e0.timeInitialized) ∧ e'.RemembersPose cam := by
  have hw : op.WF := by cases op <;> first | trivial | exact ho.elim
  refine ⟨inv_step hi hw h, ?_⟩
  cases op <;> first | exact ho.elim | skip
  case predict s =>
    rcases hu s rfl with hs | ⟨h0, hu⟩
    · obtain ⟨_, rfl⟩ | ⟨t1, _⟩ := predict_form h
      · exact ⟨rfl, ht, hc, hm⟩
      · exact absurd (lt_of_lt_of_le hs ht) (not_lt.2 t1)
    rw [← hc.1] at hu
    have key : e' = { e with cov := e'.cov } ∧ ∀ i j, i < e.stateSize → j < e.stateSize → e'.P i j = e.P i j := by
      rcases Bool.eq_false_or_eq_true e.useRoot with hx | hx
      · exact predict_reached_root (hr hx).1 h0 hi hx hu (le_trans ho ht) h
      · obtain ⟨p1, p2⟩ := predict_reached h0 hi hx hu (le_trans ho ht) h
        refine ⟨p1, fun i j h1 h2 => ?_⟩
        rw [P_standard hx, P_standard (by rw [p1]; exact hx)]; exact p2 i j h1 h2
    obtain ⟨p1, p2⟩ := key
    refine ⟨by rw [p1], by rw [p1]; exact ht, by rw [p1]; exact hc, ?_⟩
    obtain ⟨a, m1, m2, m3, m4⟩ := hm
    have hb := clone_bounds hi.tiles (List.mem_of_getLast? m1)
    have hs : e'.stateSize = e.stateSize := by rw [p1]
    refine ⟨a, by rw [p1]; exact m1, by rw [p1]; exact m2, by rw [p1]; exact m3, fun k j hk hj => ?_⟩
    rw [hs] at hj
    have hp := poseRow_lt hk
    rw [p2 _ _ (by omega) hj, p2 _ _ (by omega) hj, p2 _ _ hj (by omega), p2 _ _ hj (by omega)]
    exact m4 k j hk hj
  case frame c f =>
    have hn : ¬ e.ClonesFrame c := by
      unfold ClonesFrame
      rw [hc.1, hc.2.1]
      exact ho
    obtain ⟨_, rfl⟩ | ⟨hx, _⟩ := augmentFrame_form h
    · exact ⟨rfl, ht, hc, remembers_same hm rfl ⟨rfl, rfl⟩ rfl ⟨rfl, rfl⟩⟩
    · exact absurd hx hn
  case kalman H r R =>
    obtain ⟨_, _, _, hx, _⟩ := kalmanUpdate_form' h
    refine ⟨by rw [hx], by rw [hx]; exact ht, by rw [hx]; exact hc, ?_⟩
    rcases Bool.eq_false_or_eq_true e.useRoot with hy | hy
    · exact remembers_root (hr hy).1 hi hy (hr hy).2 hm h
    · exact remembers_kalman hi hy hm h
  case getAug c f t =>
    simp only [step, bind_ok_iff, pure_res, Except.ok.injEq] at h
    obtain ⟨x, hx, rfl⟩ := h
    have : ∃ k, x.2 = { e with state := { e.state with augs := e.state.augs.touch k [] } } := by
      unfold getAugState at hx
      split at hx
      · cases hx; exact ⟨_, rfl⟩
      · simp only [bind_ok_iff, pure_res, Except.ok.injEq] at hx
        obtain ⟨_, _, rfl⟩ := hx
        exact ⟨_, rfl⟩
    obtain ⟨k, hk⟩ := this
    rw [hk]
    exact ⟨rfl, ht, hc, remembers_same hm (by unfold window; dsimp only; rw [UMap.getD_touch]) ⟨rfl, rfl⟩ rfl ⟨rfl, rfl⟩⟩
  case attemptGpsInit t x f =>
    have : ∃ l1 l2 l3, e' = { e with gpsTimeVec := l1, gpsEcefVec := l2, gpsXyzVec := l3 } ∨
        ∃ p a, e' = setGpsReference { e with gpsTimeVec := l1, gpsEcefVec := l2, gpsXyzVec := l3 } p a := by
      simp only [step, attemptGpsInit] at h
      split at h
      · simp only [bind_ok_iff] at h
        obtain ⟨b, _, h⟩ := h
        split at h <;> cases h
        · exact ⟨_, _, _, .inr ⟨_, _, rfl⟩⟩
        · exact ⟨_, _, _, .inl rfl⟩
      · cases h; exact ⟨_, _, _, .inl rfl⟩
    obtain ⟨_, _, _, rfl | ⟨_, _, rfl⟩⟩ := this <;>
      exact ⟨rfl, ht, hc, remembers_same hm rfl ⟨rfl, rfl⟩ rfl ⟨rfl, rfl⟩⟩
  case localTime t =>
    obtain rfl := Except.ok.inj h
    have : e.timeInitialized = true := hc.2.2.trans ho
    unfold calculateLocalTime
    rw [if_pos this]
    exact ⟨rfl, ht, hc, hm⟩
  all_goals (obtain rfl := Except.ok.inj h; exact ⟨rfl, ht, hc, remembers_same hm rfl ⟨rfl, rfl⟩ rfl ⟨rfl, rfl⟩⟩)

theorem remembers_run {N : Prim K} {cam : Nat} {e0 : Ekf K} (ops : List (Op K)) :
    ∀ {e e' : Ekf K}, (∀ op ∈ ops, op.AtOnce e0) →
      (∀ s, .predict s ∈ ops → s < e0.currentTime ∨ (N.rotVecToQuat 0 = Quat.one ∧ ¬ AugType.Timed e0.augType)) → Inv e →
      (e.useRoot = true → N.Lawful ∧ ∀ op ∈ ops, op.Independent) → e0.currentTime ≤ e.currentTime →
      e.augType = e0.augType ∧ e.primaryCameraId = e0.primaryCameraId ∧ e.timeInitialized = e0.timeInitialized → e.RemembersPose cam → run N e ops = .ok e' → e'.RemembersPose cam := by
  induction ops with
  | nil => intro e e' _ _ _ _ _ _ hm h; cases h; exact hm
  | cons op ops ih =>
    intro e e' ho hu hi hr ht hc hm h
    simp only [run, bind_ok_iff] at h
    obtain ⟨e1, h1, h⟩ := h
    obtain ⟨a1, a2, a3, a4, a5⟩ := remembers_step (ho op (List.mem_cons_self ..)) hi
      (fun hx => ⟨(hr hx).1, (hr hx).2 op (List.mem_cons_self ..)⟩) (fun s hs => hu s (hs ▸ List.mem_cons_self ..)) ht hc hm h1
    exact ih (fun o h' => ho o (List.mem_cons_of_mem _ h')) (fun s h' => hu s (List.mem_cons_of_mem _ h')) a1
      (fun hx => ⟨(hr (a2 ▸ hx)).1, fun o h' => (hr (a2 ▸ hx)).2 o (List.mem_cons_of_mem _ h')⟩) a3 a4 a5 h

/-- A frame for which the pose is remembered. -/
theorem remembers_frame {N : Prim K} {e e' : Ekf K} {cam frame : Nat} (hi : Inv e) (hup : e.useRoot = true → e.cov.Upper) (hc : e.ClonesFrame cam)
    (h : augmentFrame N e cam frame = .ok e') :
    e'.useRoot = e.useRoot ∧ e'.augType = e.augType ∧ e'.primaryCameraId = e.primaryCameraId ∧
      e'.timeInitialized = e.timeInitialized ∧ e'.currentTime = e.currentTime ∧ e'.RemembersPose cam := by
  have hi' : Inv e' := inv_step hi (op := .frame cam frame) trivial h
  have hrec := records_frame h cam
  rcases hrec with ⟨hn, _⟩ | ⟨_, hrec⟩
  · exact absurd hc hn
  rw [if_pos rfl] at hrec
  rcases augmentFrame_form h with ⟨hn, _⟩ | ⟨_, e1, h1, h2⟩
  · exact absurd hc hn
  have base : e1.useRoot = e.useRoot ∧ e1.augType = e.augType ∧ e1.primaryCameraId = e.primaryCameraId ∧
      e1.timeInitialized = e.timeInitialized ∧ e1.currentTime = e.currentTime ∧ e1.state.body.pos = e.state.body.pos ∧
      e1.state.body.ang = e.state.body.ang ∧ e1.cov.rows = e1.cov.cols ∧ e1.cov.rows + 6 = e1.stateSize ∧ (e.useRoot = true → e1.cov.Upper) := by
    rcases h1 with ⟨_, h1⟩ | ⟨_, first, rest, c, _, hc', h1⟩
    · have q := refreshIndices_frame h1
      have q1 := congrArg BodyState.pos q.2
      have q2 := congrArg BodyState.ang q.2
      refine ⟨?_, ?_, ?_, ?_, ?_, q1, q2, ?_, ?_, ?_⟩ <;> rw [q.1]
      · exact hi.covRows.trans hi.covCols.symm
      · show e.cov.rows + 6 = e.stateSize + 6
        rw [hi.covRows]
      · exact hup
    · have q := refreshIndices_frame h1
      have q1 := congrArg BodyState.pos q.2
      have q2 := congrArg BodyState.ang q.2
      obtain ⟨b1, b2⟩ := (removeFromMatrix_ok_iff ..).1 ⟨_, hc'⟩
      obtain ⟨c', c1, c2, c3, c4⟩ := removeFromMatrix_spec _ _ _ _ b1 b2
      obtain rfl := Except.ok.inj (c1.symm.trans hc')
      have hn := hi.covRows
      have hm := hi.covCols
      refine ⟨?_, ?_, ?_, ?_, ?_, q1, q2, ?_, ?_, ?_⟩ <;> rw [q.1]
      · show c'.rows = c'.cols
        rw [c2, c3, hn, hm]
      · show c'.rows + 6 = e.stateSize
        omega
      · intro hx i j h1 h2 h3
        have h1' : i < c'.rows := h1
        have h2' : j < c'.cols := h2
        show c'.get i j = 0
        rw [c4 i j (by omega) (by omega)]
        refine hup hx _ _ ?_ ?_ ?_ <;> (unfold shiftUp; split_ifs <;> omega)
  obtain ⟨f1, f2, f2', f2'', f3, f4, f5, f6, f7, f8⟩ := base
  obtain ⟨a, out, ha, hout, rfl⟩ := augmentAtBack_form h2
  refine ⟨f1, f2, f2', f2'', f3, a, ha, ?_⟩
  have hlast : AugState.record a = e.poseClone frame := by
    have hx : (Ekf.records { e1 with cov := out } cam).getLast? = some a.record := by
      show ((UMap.getD e1.state.augs cam []).map AugState.record).getLast? = _
      rw [List.getLast?_map, ha]; rfl
    rw [hrec] at hx
    split at hx
    · simpa using hx.symm
    · rw [List.getLast?_drop] at hx
      split at hx
      · cases hx
      · simpa using hx.symm
  have hpos : a.pos = e.state.body.pos := congrArg AugState.pos hlast
  have hang : a.ang = e.state.body.ang := congrArg AugState.ang hlast
  refine ⟨hpos.trans f4.symm, hang.trans f5.symm, fun k j hk hj => ?_⟩
  have hb : 18 ≤ a.index ∧ a.index + 6 ≤ e1.stateSize := clone_bounds (k := cam) (a := a) hi'.tiles (List.mem_of_getLast? ha)
  have o4 := clone_P (m := e1.cov.rows) rfl f6.symm (by omega) (by omega) (fun hx => f8 (f1.symm.trans hx)) hout
  have hp := poseRow_lt hk
  have hj' : j < e1.stateSize := hj
  have src : cloneSource a.index (a.index + k) = cloneSource a.index (poseRow k) := by
    unfold cloneSource poseRow; split_ifs <;> omega
  rw [Ekf.P_eq]
  show Pof e1.useRoot out _ _ = Pof e1.useRoot out _ _ ∧ Pof e1.useRoot out _ _ = Pof e1.useRoot out _ _
  rw [o4 _ _ (by omega) (by omega), o4 _ _ (by omega) (by omega), o4 _ _ (by omega) (by omega), o4 _ _ (by omega) (by omega), src]
  exact ⟨rfl, rfl⟩

/-- An image of another camera, for whose pose there is room. -/
theorem remembers_other {N : Prim K} {e e' : Ekf K} {cam other frame : Nat} (hi : Inv e) (hup : e.useRoot = true → e.cov.Upper)
    (ho : other ≠ cam) (hc : e.ClonesFrame other) (hl : (e.window other).length + 1 ≤ e.maxTrackLength) (hm : e.RemembersPose cam)
    (h : augmentFrame N e other frame = .ok e') : e'.RemembersPose cam := by
  have hi' : Inv e' := inv_step hi (op := .frame other frame) trivial h
  have rec1 : e'.records cam = e.records cam := by
    rcases records_frame h cam with ⟨hn, _⟩ | ⟨_, hr⟩
    · exact absurd hc hn
    · rwa [if_neg (Ne.symm ho)] at hr
  have rec2 : (e'.records other).length = (e.window other).length + 1 := by
    rcases records_frame h other with ⟨hn, _⟩ | ⟨_, hr⟩
    · exact absurd hc hn
    · rw [if_pos rfl] at hr
      rw [hr]
      have : (e.records other).length = (e.window other).length := length_records ..
      split
      · simp [this]
      · omega
  obtain ⟨a, m1, m2, m3, m4⟩ := hm
  have hb := clone_bounds hi.tiles (List.mem_of_getLast? m1)
  obtain ⟨hn, _⟩ | ⟨_, e1, ⟨_, h1⟩ | ⟨hx, _⟩, h2⟩ := augmentFrame_form h
  · exact absurd hc hn
  swap
  · have : (e.window other).length = (e.state.augs.getD other []).length := rfl
    omega
  obtain ⟨b, out, hb1, hout, rfl⟩ := augmentAtBack_form h2
  have q := refreshIndices_frame h1
  have c1 : e1.cov = e.cov := by rw [q.1]
  have c2 : e1.stateSize = e.stateSize + 6 := by rw [q.1]
  have c3 : e1.useRoot = e.useRoot := by rw [q.1]
  have q1 : e1.state.body.pos = e.state.body.pos := by have := congrArg BodyState.pos q.2; exact this
  have q2 : e1.state.body.ang = e.state.body.ang := by have := congrArg BodyState.ang q.2; exact this
  obtain ⟨L1, L2, _, _, n1, n2⟩ := window_split hi.sorted.augs other
  have hn : e.state.names = (e.state.front ++ L1 ++ windowNames other (e.window other)) ++ L2 := by
    rw [State.names_front, n1]; simp [window]
  have hn1 : e1.state.names = (e.state.front ++ L1 ++ windowNames other (e.window other)) ++ [(.clone other (e.window other).length, 6)] ++ L2 := by
    have hd : State.dim { e.state with augs := e.state.augs.insert other (e.state.augs.getD other [] ++ [e.newClone frame]) } = e.stateSize + 6 := by
      have hsz := hi.size
      have hd := UMap.mapDim_insert (m := e.state.augs) (fun w => 6 * w.length) other (e.state.augs.getD other [] ++ [e.newClone frame]) [] rfl hi.sorted.augs
      unfold State.dim at hsz ⊢
      simp at *
      omega
    obtain ⟨_, r1, _, _⟩ := refreshIndices_ok (by exact hd.le) h1
    rw [r1, State.names_reindex, State.names_front]
    show e.state.front ++ mapNames _ (UMap.insert e.state.augs other (e.window other ++ [e.newClone frame])) = _
    rw [n2, windowNames_snoc]; simp
  generalize e.state.front ++ L1 ++ windowNames other (e.window other) = A at hn hn1
  have l1 : Laid e1.state (e.stateSize + 6) := by rw [← c2]; exact hi'.laid
  have hidx : b.index = nameSize A := by
    have hcl := l1.at (A := A) (B := L2) (a := .clone other (e.window other).length) (m := 6) (by rw [hn1]; simp)
    have hlen : (UMap.getD e1.state.augs other []).length = (e.window other).length + 1 := by
      rw [← rec2]; exact (length_records ..).symm
    rw [List.getLast?_eq_getElem?, hlen, Nat.add_sub_cancel] at hb1
    simp only [State.comp, hb1, Option.map_some, Option.some.injEq, Prod.mk.injEq] at hcl
    exact hcl.1
  have hlen : (e1.window cam).length = (e.window cam).length := by
    have := congrArg List.length rec1
    rwa [length_records, length_records] at this
  have hp : e.state.comp (.clone cam ((e.window cam).length - 1)) = some (a.index, 6) := by
    rw [List.getLast?_eq_getElem?] at m1
    have m1' : (UMap.getD e.state.augs cam [])[(e.window cam).length - 1]? = some a := m1
    simp only [State.comp, m1', Option.map_some]
  have hx : ∃ x, e1.state.comp (.clone cam ((e.window cam).length - 1)) = some (x, 6) ∧ ∀ k, k < 6 → cloneSource (nameSize A) (x + k) = a.index + k := by
    rcases comp_insert hi.laid l1 hn hn1 hp with ⟨g1, g2⟩ | ⟨g1, g2⟩
    · refine ⟨_, g2, fun k hk => ?_⟩
      unfold cloneSource
      dsimp only at g1
      rw [if_pos (by omega)]
    · refine ⟨_, g2, fun k hk => ?_⟩
      have : nameSize [(Label.clone other (e.window other).length, 6)] = 6 := rfl
      unfold cloneSource
      dsimp only at g1
      rw [if_neg (by omega), if_neg (by omega), if_neg (by omega)]
      omega
  obtain ⟨x, x1, x2⟩ := hx
  obtain ⟨a', a1, a2⟩ : ∃ a', (e1.window cam)[(e.window cam).length - 1]? = some a' ∧ a'.index = x := by
    simp only [State.comp, Option.map_eq_some_iff, Prod.mk.injEq] at x1
    obtain ⟨a', y1, y2, _⟩ := x1
    exact ⟨a', y1, y2⟩
  have hlast : (e1.window cam).getLast? = some a' := by rw [List.getLast?_eq_getElem?, hlen]; exact a1
  have hrec : a'.record = a.record := by
    have y1 : (Ekf.records { e1 with cov := out } cam).getLast? = some a'.record := by
      show ((e1.window cam).map AugState.record).getLast? = _
      rw [List.getLast?_map, hlast]; rfl
    have y2 : (e.records cam).getLast? = some a.record := by
      show ((e.window cam).map AugState.record).getLast? = _
      rw [List.getLast?_map, m1]; rfl
    rw [rec1, y2] at y1
    exact (Option.some.inj y1).symm
  have hpos : a'.pos = a.pos := by have := congrArg AugState.pos hrec; exact this
  have hang : a'.ang = a.ang := by have := congrArg AugState.ang hrec; exact this
  refine ⟨a', hlast, hpos.trans (m2.trans q1.symm), hang.trans (m3.trans q2.symm), fun k j hk hj => ?_⟩
  have hj' : j < e1.stateSize := hj
  have hA : nameSize A ≤ e.stateSize ∧ 12 ≤ nameSize A := by
    have := clone_bounds (s := e1.state) (k := other) (a := b) hi'.tiles (List.mem_of_getLast? hb1)
    rw [hidx] at this
    have h' : nameSize A + 6 ≤ e1.stateSize := this.2
    omega
  have hxb : x + 6 ≤ e1.stateSize := by
    have := l1.bound x1
    dsimp only at this
    omega
  have o4 := clone_P (m := e1.cov.rows) rfl (by rw [c1, hi.covRows, hi.covCols]) (by rw [hidx]; omega) (by rw [c1, hi.covRows, hidx]; omega)
    (fun hx => by rw [c1]; exact hup (c3.symm.trans hx)) hout
  rw [hidx, c1, hi.covRows] at o4
  have hpk := poseRow_lt hk
  have src : cloneSource (nameSize A) (poseRow k) = poseRow k := by unfold cloneSource; rw [if_pos (by omega)]
  have hcs : cloneSource (nameSize A) j < e.stateSize := by unfold cloneSource; split_ifs <;> omega
  rw [Ekf.P_eq]
  show Pof e1.useRoot out _ _ = Pof e1.useRoot out _ _ ∧ Pof e1.useRoot out _ _ = Pof e1.useRoot out _ _
  rw [a2, o4 _ _ (by omega) (by omega), o4 _ _ (by omega) (by omega), o4 _ _ (by omega) (by omega), o4 _ _ (by omega) (by omega), x2 k hk, src, c3]
  exact m4 k _ hk hcs

/-- **Until time passes, the pose remembered for an image is the pose of the body**: after a frame for which the filter remembers its pose, and
after any corrections and other calls that take no time, the newest pose remembered for the camera has the value of the body's pose and the
same covariances with everything.  In the standard form this holds whatever the measurements and whatever inverse they are weighed with; in
square-root form the factor is triangular at the frame, the numerics keep their contracts and the errors of a measurement are independent. -/
theorem C99_remembered_partial (N : Prim K) (h0 : N.rotVecToQuat 0 = Quat.one) (p : EkfParams K)
    (before : List (Op K)) (hw : ∀ op ∈ before, op.WF) (e : Ekf K) (he : run N (init N p) before = .ok e) (cam frame : Nat) (hc : e.ClonesFrame cam)
    (after : List (Op K)) (ho : ∀ op ∈ after, op.AtOnce e)
    (hr : p.useRoot = true → N.Lawful ∧ e.cov.Upper ∧ ∀ op ∈ after, op.Independent) (e' : Ekf K)
    (h : run N e (.frame cam frame :: after) = .ok e') : e'.RemembersPose cam := by
  have hi := inv_run (inv_init N p) hw he
  have hu : e.useRoot = p.useRoot := (config_run he).useRoot
  simp only [run, bind_ok_iff] at h
  obtain ⟨e1, h1, h⟩ := h
  obtain ⟨f1, f2, f3, f3', f4, f5⟩ := remembers_frame hi (fun hx => (hr (hu ▸ hx)).2.1) hc h1
  refine remembers_run after ho (fun _ _ => .inr ⟨h0, ?_⟩) (inv_step hi (op := .frame cam frame) trivial h1) (fun hx => ?_) f4.ge ⟨f2, f3, f3'⟩ f5 h
  · rcases hc with hc | ⟨hc, _⟩ <;> rw [hc] <;> simp [AugType.Timed]
  · have := hr (by rw [← hu, ← f1]; exact hx)
    exact ⟨this.1, this.2.2⟩

/-- **Two cameras that take their images at once remember the same pose**: after a frame of one camera, calls that take no time, a frame of
another camera for whose pose there is room, and again calls that take no time, the newest poses remembered for both cameras are the pose of
the body, in their values and in their covariances with everything. -/
theorem C99_rig_partial (N : Prim K) (h0 : N.rotVecToQuat 0 = Quat.one) (p : EkfParams K)
    (before : List (Op K)) (hw : ∀ op ∈ before, op.WF) (e : Ekf K) (he : run N (init N p) before = .ok e) (cam frame : Nat) (hc : e.ClonesFrame cam)
    (between : List (Op K)) (hb : ∀ op ∈ between, op.AtOnce e) (e2 : Ekf K) (h : run N e (.frame cam frame :: between) = .ok e2)
    (other frame' : Nat) (hne : other ≠ cam) (hc2 : e2.ClonesFrame other) (hl : (e2.window other).length + 1 ≤ e2.maxTrackLength)
    (after : List (Op K)) (ho : ∀ op ∈ after, op.AtOnce e2)
    (hr : p.useRoot = true → N.Lawful ∧ e.cov.Upper ∧ e2.cov.Upper ∧ ∀ op ∈ between ++ after, op.Independent) (e' : Ekf K)
    (h' : run N e2 (.frame other frame' :: after) = .ok e') : e'.RemembersPose cam ∧ e'.RemembersPose other := by
  have hm := C99_remembered_partial N h0 p before hw e he cam frame hc between hb
    (fun hx => ⟨(hr hx).1, (hr hx).2.1, fun op ho => (hr hx).2.2.2 op (List.mem_append_left _ ho)⟩) e2 h
  have hi := inv_run (inv_init N p) hw he
  have hu : e2.useRoot = p.useRoot := by
    have hrun : run N (init N p) (before ++ .frame cam frame :: between) = .ok e2 := by rw [run_append, he, ok_bind, h]
    exact (config_run hrun).useRoot
  have hi2 : Inv e2 := by
    refine inv_run hi (fun op hop => ?_) h
    rcases List.mem_cons.1 hop with rfl | hop
    · trivial
    · have := hb op hop
      cases op <;> first | trivial | exact this.elim
  simp only [run, bind_ok_iff] at h'
  obtain ⟨e3, h3, h'⟩ := h'
  have hup : e2.useRoot = true → e2.cov.Upper := fun hx => (hr (hu ▸ hx)).2.2.1
  obtain ⟨f1, f2, f3, f3', f4, f5⟩ := remembers_frame hi2 hup hc2 h3
  have f6 := remembers_other hi2 hup hne hc2 hl hm h3
  have hi3 : Inv e3 := inv_step hi2 (op := .frame other frame') trivial h3
  have ht : ¬ AugType.Timed e2.augType := by rcases hc2 with hc | ⟨hc, _⟩ <;> rw [hc] <;> simp [AugType.Timed]
  have hx : e3.useRoot = true → N.Lawful ∧ ∀ op ∈ after, op.Independent := fun hx => by
    have := hr (by rw [← hu, ← f1]; exact hx)
    exact ⟨this.1, fun op ho => this.2.2.2 op (List.mem_append_right _ ho)⟩
  exact ⟨remembers_run after ho (fun _ _ => .inr ⟨h0, ht⟩) hi3 hx f4.ge ⟨f2, f3, f3'⟩ f6 h',
    remembers_run after ho (fun _ _ => .inr ⟨h0, ht⟩) hi3 hx f4.ge ⟨f2, f3, f3'⟩ f5 h'⟩

/-- What is pruned was there. -/
theorem prune_subset (now d : K) (l : List (AugState K)) : ∀ a ∈ prune now d l, a ∈ l := by
  induction l with
  | nil => intro a h; simp [prune] at h
  | cons x l ih =>
    intro a h
    unfold prune at h
    split at h
    · simp_all
    · rename_i b rest hx
      split at h
      · exact List.mem_cons_of_mem _ (ih a (by rw [hx]; exact h))
      · rcases List.mem_cons.1 h with rfl | h
        · exact List.mem_cons_self ..
        · exact List.mem_cons_of_mem _ (ih a (by rw [hx]; exact h))

/-- Removing the rows and columns of a clone keeps a factor triangular. -/
theorem upper_removed {c out : Mat K} {i n : Nat} (hc : c.rows = c.cols) (hu : c.Upper) (h : removeFromMatrix c i i n = .ok out) : out.Upper := by
  obtain ⟨b1, b2⟩ := (removeFromMatrix_ok_iff ..).1 ⟨_, h⟩
  obtain ⟨c', c1, c2, c3, c4⟩ := removeFromMatrix_spec _ _ _ _ b1 b2
  obtain rfl := Except.ok.inj (c1.symm.trans h)
  intro x y h1 h2 h3
  rw [c4 x y (by omega) (by omega)]
  refine hu _ _ ?_ ?_ ?_ <;> (unfold shiftUp; split_ifs <;> omega)

theorem upper_pruneLoop {N : Prim K} {n : Nat} {e e' : Ekf K} (hi : Inv e) (hu : e.cov.Upper) (h : pruneLoop N n e = .ok e') : e'.cov.Upper := by
  induction n generalizing e with
  | zero => cases h; exact hu
  | succ n ih =>
    simp only [pruneLoop, bind_ok_iff] at h
    obtain ⟨e1, h1, h2⟩ := h
    refine ih (inv_pruneAt hi h1) ?_ h2
    obtain ⟨_, _, ⟨_, rfl⟩ | ⟨_, _, _, _, hc, h⟩⟩ := pruneAt_form h1
    · exact hu
    · rw [(refreshIndices_frame h).1]
      exact upper_removed (hi.covRows.trans hi.covCols.symm) hu hc

/-- The pose remembered by a prediction. -/
theorem remembers_timed {N : Prim K} {e e' : Ekf K} (hi : Inv e) (hup : e.useRoot = true → e.cov.Upper) (hn : e.RemembersNow e')
    (h : augmentTimed N e = .ok e') : e'.useRoot = e.useRoot ∧ e'.currentTime = e.currentTime ∧ e'.RemembersPose 0 := by
  obtain ⟨b, hb1, -, hb3⟩ := hn
  have hold : ¬ ∀ x ∈ e'.records 0, x ∈ e.records 0 := by
    intro hx
    obtain ⟨y, hy, hxy⟩ := List.mem_map.1 (hx _ (List.mem_map_of_mem (f := AugState.record) (List.mem_of_getLast? hb1)))
    have : y.record.time = b.record.time := by rw [hxy]
    exact hb3 y hy this
  have hi' : Inv e' := inv_augmentTimed hi h
  have hrec := records_timed h
  rcases hrec with ⟨_, rfl⟩ | ⟨_, _, due, hd, ⟨_, _, _, hr⟩ | ⟨hdue, _, _, hr⟩⟩
  · exact absurd (fun x hx => hx) hold
  · exact absurd (fun x hx => prune_subset _ _ _ x (by rw [← hr]; exact hx)) hold
  rcases augmentTimed_form h with ⟨_, rfl⟩ | ⟨_, due', e1, hd', hp, ⟨_, rfl⟩ | ⟨_, e2, e3, h2, h3, rfl⟩⟩
  · exact absurd (fun x hx => hx) hold
  · have hp' := records_pruneAll (e := { e with state := { e.state with augs := e.state.augs.touch 0 [] } }) (e' := e')
      (by unfold window; dsimp only; rw [UMap.getD_touch]; exact hp)
    refine absurd (fun x hx => prune_subset e.currentTime e.maxTrackDuration _ x ?_) hold
    have := hp'.2.2.2.2.2
    rw [this] at hx
    unfold records window at hx ⊢
    dsimp only at hx
    rw [UMap.getD_touch] at hx
    exact hx
  have hi1 : Inv e1 := inv_pruneLoop (inv_touchAug hi 0) hp
  have hp' := records_pruneAll (e := { e with state := { e.state with augs := e.state.augs.touch 0 [] } }) (e' := e1)
      (by unfold window; dsimp only; rw [UMap.getD_touch]; exact hp)
  obtain ⟨f1, _, _, b1, _, _⟩ := hp'
  have hup1 : e.useRoot = true → e1.cov.Upper := fun hx => upper_pruneLoop (inv_touchAug hi 0) (hup hx) hp
  have q := refreshIndices_frame h2
  obtain ⟨a, out, ha, hout, rfl⟩ := augmentAtBack_form h3
  have c1 : e2.cov = e1.cov := by rw [q.1]
  have c2 : e2.stateSize = e1.stateSize + 6 := by rw [q.1]
  have c3 : e2.useRoot = e.useRoot := (by rw [q.1] : e2.useRoot = e1.useRoot).trans f1.useRoot
  have c4 : e2.currentTime = e.currentTime := (by rw [q.1] : e2.currentTime = e1.currentTime).trans f1.currentTime
  have c5 : e2.state.body.pos = e.state.body.pos ∧ e2.state.body.ang = e.state.body.ang := by
    have q1 := congrArg BodyState.pos q.2
    have q2 := congrArg BodyState.ang q.2
    have r1 := congrArg BodyState.pos b1
    have r2 := congrArg BodyState.ang b1
    exact ⟨q1.trans r1, q2.trans r2⟩
  refine ⟨c3, c4, a, ha, ?_⟩
  have hlast : AugState.record a = e.poseClone 0 := by
    have hx : (Ekf.records { e2 with cov := out, frameReceived := false } 0).getLast? = some a.record := by
      show ((UMap.getD e2.state.augs 0 []).map AugState.record).getLast? = _
      rw [List.getLast?_map, ha]; rfl
    rw [hr] at hx
    simpa using hx.symm
  have hpos : a.pos = e.state.body.pos := congrArg AugState.pos hlast
  have hang : a.ang = e.state.body.ang := congrArg AugState.ang hlast
  refine ⟨hpos.trans c5.1.symm, hang.trans c5.2.symm, fun k j hk hj => ?_⟩
  have hb : 18 ≤ a.index ∧ a.index + 6 ≤ e2.stateSize := clone_bounds (k := 0) (a := a) hi'.tiles (List.mem_of_getLast? ha)
  have n1 := hi1.covRows
  have n2 := hi1.covCols
  have o4 := clone_P (m := e2.cov.rows) rfl (by rw [c1, n1, n2]) (by omega) (by rw [c1, n1]; omega)
    (fun hx => by rw [c1]; exact hup1 (c3.symm.trans hx)) hout
  have hp := poseRow_lt hk
  have hj' : j < e2.stateSize := hj
  have src : cloneSource a.index (a.index + k) = cloneSource a.index (poseRow k) := by
    unfold cloneSource poseRow; split_ifs <;> omega
  rw [c1, n1] at o4
  rw [Ekf.P_eq]
  show Pof e2.useRoot out _ _ = Pof e2.useRoot out _ _ ∧ Pof e2.useRoot out _ _ = Pof e2.useRoot out _ _
  rw [o4 _ _ (by omega) (by omega), o4 _ _ (by omega) (by omega), o4 _ _ (by omega) (by omega), o4 _ _ (by omega) (by omega), src]
  exact ⟨rfl, rfl⟩

/-- **The same for poses remembered by the clock**: after a prediction that remembers a pose, and after any corrections and other calls that
take no time, the newest pose remembered has the value of the body's pose and the same covariances with everything.  In square-root form the
factor is triangular before the prediction, or gravity is known, the numerics keep their contracts and the errors of a measurement are
independent. -/
theorem C99_clock_partial (N : Prim K) (p : EkfParams K) (before : List (Op K)) (hw : ∀ op ∈ before, op.WF) (e : Ekf K)
    (he : run N (init N p) before = .ok e) (t : K) (e1 : Ekf K) (h1 : step N e (.predict t) = .ok e1) (hn : e.RemembersNow e1)
    (after : List (Op K)) (ho : ∀ op ∈ after, op.AtOnce e1) (hp : ∀ s, .predict s ∈ after → s < t)
    (hr : p.useRoot = true → N.Lawful ∧ (e.isGravityInitialized = true ∨ e.cov.Upper) ∧ ∀ op ∈ after, op.Independent) (e' : Ekf K)
    (h : run N e1 after = .ok e') : e'.RemembersPose 0 := by
  have hi := inv_run (inv_init N p) hw he
  have hu : e.useRoot = p.useRoot := (config_run he).useRoot
  have hi1 := inv_step hi (op := .predict t) trivial h1
  obtain ⟨_, rfl⟩ | ⟨t1, b, out, hb, h2⟩ := predict_form h1
  · obtain ⟨a, a1, _, a3⟩ := hn
    exact absurd rfl (a3 a (List.mem_of_getLast? a1))
  have h18 : 18 ≤ e.cov.rows := by rw [hi.covRows, hi.size]; unfold State.dim; omega
  have hsh : out.rows = e.cov.rows ∧ out.cols = e.cov.cols := by
    obtain ⟨_, _, rfl⟩ | ⟨_, _, ho'⟩ := hb
    · exact ⟨rfl, rfl⟩
    · exact predictCov_shape (hi.covRows.trans hi.covCols.symm) ho'
  have hup : e.useRoot = true → out.Upper := by
    intro hx
    obtain ⟨hg, _, rfl⟩ | ⟨_, _, ho'⟩ := hb
    · rcases (hr (hu ▸ hx)).2.1 with hy | hy
      · exact absurd (hg.symm.trans hy) Bool.noConfusion
      · exact hy
    · obtain ⟨M, out', o1, o2, o3, o4, _⟩ := predictCov_root N e.cov e.processNoise (t - e.currentTime)
        (by rw [hi.covRows, hi.covCols]) h18 (by rw [hi.noiseCols, hi.covRows])
      rw [hx, ← hi.covRows] at ho'
      obtain rfl := Except.ok.inj (o1.symm.trans ho')
      unfold qrStack at o2
      split at o2
      · split at o2
        · cases o2; exact fun i j _ _ hij => if_neg (by omega)
        · cases o2
      · cases o2
  have hib : Inv { e with state := { e.state with body := b }, cov := out, currentTime := t } := by
    have hbi : b.index = e.state.body.index := by
      obtain ⟨_, rfl, _⟩ | ⟨_, rfl, _⟩ := hb <;> rfl
    refine ⟨⟨hi.sorted.imus, hi.sorted.gpss, hi.sorted.cams, hi.sorted.fids, hi.sorted.augs⟩, hi.size, hi.imu, hi.gps, hi.cam, hi.fid, hi.aug,
      hsh.1.trans hi.covRows, hsh.2.trans hi.covCols, hi.noiseRows, hi.noiseCols, ?_⟩
    have ht := hi.tiles
    unfold State.blocks at ht ⊢
    dsimp only
    rw [hbi]
    exact ht
  obtain ⟨f1, f2, f3⟩ := remembers_timed hib hup hn h2
  refine remembers_run after ho (fun s hs => .inl (by rw [f2]; exact hp s hs)) hi1 (fun hx => ?_) le_rfl ⟨rfl, rfl, rfl⟩ f3 h
  have := hr (by rw [← hu]; exact f1.symm.trans hx)
  exact ⟨this.1, this.2.2⟩

open Samples in
/-- A body, a camera, and a track of three images at most. -/
def C99_before : List (Op ℚ) :=
  [.registerCamera 1 cam (cov 6), .initializeAt 0 BodyState.default, .initializeGravity, .setMaxTrackLength 3, .setBodyMotion ![1, 0, 0] 0 0,
   .frame 1 0, .predict 1]
/-- A position that is measured, a new acceleration and a prediction to the present. -/
def C99_after (n : Nat) : List (Op ℚ) :=
  [.kalman ⟨1, n, fun _ k => if k = 0 then 1 else 0⟩ ⟨1, fun _ => 2⟩ ⟨1, 1, fun _ _ => 1⟩, .setBodyMotion ![2, 0, 0] 0 0, .predict 1]

set_option synthInstance.maxSize 2000 in
open Samples in
/-- After the second image, which is remembered behind the first one, a correction moves body and remembered pose. -/
example : C91_num.rotVecToQuat 0 = Quat.one ∧ (params .all false).useRoot = false ∧ (∀ op ∈ C99_before, op.WF) ∧
    ∃ e e' : Ekf ℚ, run C91_num.toPrim (init C91_num.toPrim (params .all false)) C99_before = .ok e ∧ e.ClonesFrame 1 ∧
      (∀ op ∈ C99_after 36, op.AtOnce e) ∧ run C91_num.toPrim e (.frame 1 1 :: C99_after 36) = .ok e' ∧
      (e'.window 1).length = 2 ∧ e'.state.body.pos 0 ≠ e.state.body.pos 0 := by
  refine ⟨turningNum_zero, rfl, ?_, ?_⟩
  · intro op h
    simp only [C99_before, List.mem_cons, List.not_mem_nil, or_false] at h
    rcases h with rfl | rfl | rfl | rfl | rfl | rfl | rfl <;> first | trivial | rfl
  · obtain ⟨p, hr, hp⟩ := ok_of_check (r := do
        let e ← run C91_num.toPrim (init C91_num.toPrim (params .all false)) C99_before
        let e' ← run C91_num.toPrim e (.frame 1 1 :: C99_after 36)
        pure (e, e'))
      (P := fun p : Ekf ℚ × Ekf ℚ => p.1.augType = .all ∧ p.1.currentTime = 1 ∧ (p.2.window 1).length = 2 ∧
        p.2.state.body.pos 0 ≠ p.1.state.body.pos 0) (by decide +kernel)
    simp only [bind_ok_iff, pure_res, Except.ok.injEq] at hr
    obtain ⟨e, h0, e', h1, rfl⟩ := hr
    obtain ⟨p1, p2, p3, p4⟩ := hp
    refine ⟨e, e', h0, .inl p1, ?_, h1, p3, p4⟩
    intro op h
    simp only [C99_after, List.mem_cons, List.not_mem_nil, or_false] at h
    rcases h with rfl | rfl | rfl
    · trivial
    · trivial
    · exact p2.ge

open Samples in
/-- A body with two cameras, of which one is calibrated. -/
def C99_pair : List (Op ℚ) :=
  [.registerCamera 1 cam (cov 6), .initializeAt 0 BodyState.default, .setMaxTrackLength 3]
/-- A new acceleration and a query. -/
def C99_rest : List (Op ℚ) := [.setBodyMotion ![2, 0, 0] 0 0, .getAug 1 1 1]

set_option synthInstance.maxSize 2000 in
open Samples in
/-- Both cameras take an image, a correction lies in between; the pose of the other camera is put in front of that of the first. -/
example : C91_num.rotVecToQuat 0 = Quat.one ∧ (params .all false).useRoot = false ∧ (∀ op ∈ C99_pair, op.WF) ∧
    ∃ e e2 e' : Ekf ℚ, run C91_num.toPrim (init C91_num.toPrim (params .all false)) C99_pair = .ok e ∧ e.ClonesFrame 1 ∧
      (∀ op ∈ (C99_after 30).take 2, op.AtOnce e) ∧ run C91_num.toPrim e (.frame 1 1 :: (C99_after 30).take 2) = .ok e2 ∧ e2.ClonesFrame 0 ∧
      (e2.window 0).length + 1 ≤ e2.maxTrackLength ∧ (∀ op ∈ C99_rest, op.AtOnce e2) ∧
      run C91_num.toPrim e2 (.frame 0 1 :: C99_rest) = .ok e' ∧
      e2.state.body.pos 0 ≠ e.state.body.pos 0 ∧ (e'.window 0).map AugState.index = [24] ∧ (e'.window 1).map AugState.index = [30] := by
  refine ⟨turningNum_zero, rfl, ?_, ?_⟩
  · intro op h
    simp only [C99_pair, List.mem_cons, List.not_mem_nil, or_false] at h
    rcases h with rfl | rfl | rfl <;> first | trivial | rfl
  · obtain ⟨p, hr, hp⟩ := ok_of_check (r := do
        let e ← run C91_num.toPrim (init C91_num.toPrim (params .all false)) C99_pair
        let e2 ← run C91_num.toPrim e (.frame 1 1 :: (C99_after 30).take 2)
        let e' ← run C91_num.toPrim e2 (.frame 0 1 :: C99_rest)
        pure (e, e2, e'))
      (P := fun p : Ekf ℚ × Ekf ℚ × Ekf ℚ => p.1.augType = .all ∧ p.2.1.augType = .all ∧
        (p.2.1.window 0).length + 1 ≤ p.2.1.maxTrackLength ∧
        p.2.1.state.body.pos 0 ≠ p.1.state.body.pos 0 ∧ (p.2.2.window 0).map AugState.index = [24] ∧
        (p.2.2.window 1).map AugState.index = [30]) (by decide +kernel)
    simp only [bind_ok_iff, pure_res, Except.ok.injEq] at hr
    obtain ⟨e, h0, e2, h1, e', h2, rfl⟩ := hr
    obtain ⟨p1, p3, p5, p6, p7, p8⟩ := hp
    refine ⟨e, e2, e', h0, .inl p1, ?_, h1, .inl p3, p5, ?_, h2, p6, p7, p8⟩
    · intro op h
      simp only [C99_after, List.take_succ_cons, List.take_zero, List.mem_cons, List.not_mem_nil, or_false] at h
      rcases h with rfl | rfl <;> trivial
    · intro op h
      simp only [C99_rest, List.mem_cons, List.not_mem_nil, or_false] at h
      rcases h with rfl | rfl <;> trivial

open Samples in
/-- The first image is remembered at time 1, the second one has come. -/
def C99_clock : List (Op ℚ) :=
  [.initializeAt 0 BodyState.default, .setBodyMotion ![1, 0, 0] 0 0, .frame 1 0, .predict 1, .frame 1 1]

/-- The frame of the third image, a query, a position that is measured and a new acceleration. -/
def C99_same : List (Op ℚ) := .frame 1 2 :: .getAug 1 1 2 :: (C99_after 30).take 2

set_option synthInstance.maxSize 2000 in
open Samples in
/-- The second image is remembered at time 3, behind the first one; a measured position then moves body and remembered pose. -/
example : (∀ op ∈ C99_clock, op.WF) ∧ (params .time false).useRoot = false ∧ (∀ s, .predict s ∈ C99_same → s < 3) ∧
    ∃ e e1 e' : Ekf ℚ, run C91_num.toPrim (init C91_num.toPrim (params .time false)) C99_clock = .ok e ∧
      step C91_num.toPrim e (.predict 3) = .ok e1 ∧ e.RemembersNow e1 ∧ (∀ op ∈ C99_same, op.AtOnce e1) ∧ run C91_num.toPrim e1 C99_same = .ok e' ∧
      (e1.window 0).length = 2 ∧ e'.state.body.pos 0 ≠ e1.state.body.pos 0 := by
  refine ⟨?_, rfl, ?_, ?_⟩
  · intro op h
    simp only [C99_clock, List.mem_cons, List.not_mem_nil, or_false] at h
    rcases h with rfl | rfl | rfl | rfl | rfl <;> first | trivial | rfl
  · intro s h
    simp [C99_same, C99_after] at h
  · obtain ⟨p, hr, hp⟩ := ok_of_check (r := do
        let e ← run C91_num.toPrim (init C91_num.toPrim (params .time false)) C99_clock
        let e1 ← step C91_num.toPrim e (.predict 3)
        let e' ← run C91_num.toPrim e1 C99_same
        pure (e, e1, e'))
      (P := fun p : Ekf ℚ × Ekf ℚ × Ekf ℚ => (p.1.window 0).map AugState.time = [1] ∧ (p.2.1.window 0).map AugState.time = [1, 3] ∧
        p.2.1.currentTime = 3 ∧ p.2.1.augType = .time ∧ p.2.2.state.body.pos 0 ≠ p.2.1.state.body.pos 0) (by decide +kernel)
    simp only [bind_ok_iff, pure_res, Except.ok.injEq] at hr
    obtain ⟨e, h0, e1, h1, e', h2, rfl⟩ := hr
    obtain ⟨p1, p2, p3, p5, p4⟩ := hp
    refine ⟨e, e1, e', h0, h1, ?_, ?_, h2, by simpa using congrArg List.length p2, p4⟩
    have hl : (e1.window 0).getLast?.map AugState.time = some 3 := by
      rw [← List.getLast?_map]
      exact congrArg List.getLast? p2
    obtain ⟨a, a1, a2⟩ := Option.map_eq_some_iff.1 hl
    refine ⟨a, a1, a2.trans p3.symm, fun b hb hx => ?_⟩
    have : b.time ∈ (e.window 0).map AugState.time := List.mem_map_of_mem hb
    rw [p1, hx, a2] at this
    revert this
    decide
    · intro op h
      simp only [C99_same, C99_after, List.take_succ_cons, List.take_zero, List.mem_cons, List.not_mem_nil, or_false] at h
      rcases h with rfl | rfl | rfl | rfl
      · show ¬ e1.ClonesFrame 1
        unfold ClonesFrame
        rw [p5]
        simp
      all_goals trivial

/-- The same filter in square-root form. -/
noncomputable def C99_params : EkfParams ℝ := { C11_params with useRoot := true, augType := .all }
/-- The body before the image. -/
noncomputable def C99_start : List (Op ℝ) := [.initializeAt 0 BodyState.default, .initializeGravity, .setMaxTrackLength 3]
/-- A measured velocity after the image. -/
noncomputable def C99_velocity : Op ℝ := .kalman ⟨1, 24, fun _ k => if k = 3 then 1 else 0⟩ ⟨1, fun _ => 1⟩ ⟨1, 1, fun _ _ => 1⟩

example : realPrim.rotVecToQuat 0 = Quat.one ∧ C99_params.useRoot = true ∧ realPrim.Lawful ∧ (∀ op ∈ C99_start, op.WF) ∧
    ∃ e e' : Ekf ℝ, run realPrim (init realPrim C99_params) C99_start = .ok e ∧ e.ClonesFrame 1 ∧ e.cov.Upper ∧
      (∀ op ∈ [C99_velocity], op.AtOnce e) ∧ (∀ op ∈ [C99_velocity], op.Independent) ∧
      run realPrim e [.frame 1 1, C99_velocity] = .ok e' := by
  have hwf : ∀ op ∈ C99_start, op.WF := by
    intro op h
    simp only [C99_start, List.mem_cons, List.not_mem_nil, or_false] at h
    rcases h with rfl | rfl | rfl <;> first | trivial | rfl
  refine ⟨realPrim_rot_zero, rfl, realPrim_lawful, hwf, ?_⟩
  obtain ⟨e, he, e1, e2, e3, e4, e5', e5⟩ : ∃ e, run realPrim (init realPrim C99_params) C99_start = .ok e ∧ e.augType = .all ∧
      e.maxTrackLength = 3 ∧ e.bodyProcessNoise.size = 18 ∧ e.stateSize = 18 ∧ e.window 1 = [] ∧ e.cov = (init realPrim C99_params).cov :=
    ⟨_, rfl, rfl, rfl, rfl, rfl, rfl, rfl⟩
  have hi := inv_run (inv_init realPrim C99_params) hwf he
  have hc : e.ClonesFrame 1 := .inl e1
  obtain ⟨f, hf⟩ := augmentFrame_defined realPrim e 1 1 hi e3 fun _ hx => absurd (e2.symm.trans hx) (by decide)
  have hif : Inv f := inv_step hi (op := .frame 1 1) trivial hf
  have hsz : f.stateSize = 24 := by
    rcases augmentFrame_form hf with ⟨hn, _⟩ | ⟨_, f1, ⟨_, h1⟩ | ⟨hl, _⟩, h2⟩
    · exact absurd hc hn
    · obtain ⟨_, _, _, _, rfl⟩ := augmentAtBack_form h2
      show f1.stateSize = 24
      rw [(refreshIndices_frame h1).1]
      show e.stateSize + 6 = 24
      rw [e4]
    · have : (e.state.augs.getD 1 []).length = 0 := congrArg List.length e5'
      omega
  obtain ⟨g, hg⟩ := kalman_defined realPrim f ⟨1, 24, fun _ k => if k = 3 then 1 else 0⟩ ⟨1, fun _ => 1⟩ ⟨1, 1, fun _ _ => 1⟩ hif hsz.symm rfl rfl rfl
  refine ⟨e, g, he, hc, ?_, ?_, ?_, ?_⟩
  · rw [e5]
    intro i j _ _ hij
    simp [init, C99_params, C11_params, Mat.map, Mat.smul, Mat.identity, realPrim, hij.ne']
  · intro op h
    obtain rfl := List.mem_singleton.1 h
    trivial
  · intro op h
    obtain rfl := List.mem_singleton.1 h
    refine ⟨⟨rfl, fun _ _ _ _ => rfl, fun x => by simpa [quad] using mul_self_nonneg (x 0)⟩, ?_, fun _ _ => 1, ?_, ?_⟩
    · intro i j h1 h2 h3
      have h1' : i < 1 := h1
      have h2' : j < 1 := h2
      omega
    all_goals
      intro i j h1 h2
      have h1' : i < 1 := h1
      have h2' : j < 1 := h2
      obtain rfl : i = 0 := by omega
      obtain rfl : j = 0 := by omega
      simp
  · simp only [run, step, C99_velocity, hf, ok_bind, hg]

end EkfCal
