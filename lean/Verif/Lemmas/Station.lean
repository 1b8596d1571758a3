import Verif.Lemmas.UpdaterOps
import Verif.Lemmas.CovHist
import Verif.Spec.Station

/-!
# Histories of events are histories of filter calls
-/

set_option linter.unusedSimpArgs false
set_option linter.unusedSectionVars false

namespace EkfCal
open Ekf
variable {K : Type} [Field K] [LinearOrder K]

/-- Every noise matrix an updater builds from the message satisfies `Q`; direct calls satisfy `P`. -/
def Call.Sends (P : Op K → Prop) (Q : Mat K → Prop) : Call K → Prop
  | .filter op => P op
  | .imu _ _ _ ac _ wc => (∀ (u : ImuUpdater) R, u.zeroAccNoise ac wc = .ok R → Q R) ∧
      ∀ R, ImuUpdater.measurementNoise ac wc = .ok R → Q R
  | .gps _ _ _ c => Q c ∧ ∀ n, Q (Mat.identity n n)
  | .fid _ _ d => ∀ R, FidUpdater.noiseOf d = .ok R → Q R
  | .cam _ _ _ _ px => ∀ n, Q ((Mat.identity n n).smul (max px (1 / 2) * max px (1 / 2)))
  | _ => True

theorem Station.step_ops {N : Num K} {G : GpsNum K} {s s' : Station K} {c : Call K} {P : Op K → Prop}
    {Q : Mat K → Prop} (hP : ∀ op, op.Inner Q → P op) (hc : c.Sends P Q) (h : s.step N G c = .ok s') :
    ∃ ops, Ekf.run N.toPrim s.ekf ops = .ok s'.ekf ∧ ∀ op ∈ ops, P op := by
  have via : ∀ {a b : Ekf K}, Via N.toPrim Q a b → ∃ ops, Ekf.run N.toPrim a ops = .ok b ∧ ∀ op ∈ ops, P op :=
    fun ⟨ops, h1, h2, _⟩ => ⟨ops, h1, fun op ho => hP op (h2 op ho)⟩
  cases c with
  | filter op =>
    simp only [step, bind_ok_iff, pure_res, Except.ok.injEq] at h
    obtain ⟨e, h1, rfl⟩ := h
    exact ⟨[op], by simp [Ekf.run, h1], fun o ho => by rw [List.mem_singleton.1 ho]; exact hc⟩
  | newImu k id a b => simp only [step, pure_res, Except.ok.injEq] at h; subst h; exact ⟨[], by split <;> rfl, by simp⟩
  | newGps k id a => simp only [step, pure_res, Except.ok.injEq] at h; subst h; exact ⟨[], by split <;> rfl, by simp⟩
  | newFid k id a b d => simp only [step, pure_res, Except.ok.injEq] at h; subst h; exact ⟨[], by split <;> rfl, by simp⟩
  | newCam k id a d => simp only [step, pure_res, Except.ok.injEq] at h; subst h; exact ⟨[], by split <;> rfl, by simp⟩
  | imu k t a ac w wc =>
    simp only [step] at h
    split at h
    · cases h; exact ⟨[], rfl, by simp⟩
    · simp only [bind_ok_iff, pure_res, Except.ok.injEq] at h
      obtain ⟨r, h1, rfl⟩ := h
      exact via (ImuUpdater.update_via h1 (hc.1 _) hc.2)
  | gps k t x v =>
    simp only [step] at h
    split at h
    · cases h; exact ⟨[], rfl, by simp⟩
    · simp only [bind_ok_iff, pure_res, Except.ok.injEq] at h
      obtain ⟨r, h1, rfl⟩ := h
      exact via (GpsUpdater.update_via h1 hc.2 hc.1)
  | fid k t d =>
    simp only [step] at h
    split at h
    · cases h; exact ⟨[], rfl, by simp⟩
    · simp only [bind_ok_iff, pure_res, Except.ok.injEq] at h
      obtain ⟨r, h1, rfl⟩ := h
      exact via (FidUpdater.update_via h1 hc)
  | cam k t i fs px =>
    simp only [step] at h
    split at h
    · cases h; exact ⟨[], rfl, by simp⟩
    · simp only [bind_ok_iff, pure_res, Except.ok.injEq] at h
      obtain ⟨r, h1, rfl⟩ := h
      exact via (MsckfUpdater.update_via h1 hc)

theorem Station.run_ops {N : Num K} {G : GpsNum K} {P : Op K → Prop} {Q : Mat K → Prop}
    (hP : ∀ op, op.Inner Q → P op) {cs : List (Call K)} : ∀ {s s' : Station K}, (∀ c ∈ cs, c.Sends P Q) →
    s.run N G cs = .ok s' → ∃ ops, Ekf.run N.toPrim s.ekf ops = .ok s'.ekf ∧ ∀ op ∈ ops, P op := by
  induction cs with
  | nil => intro s s' _ h; cases h; exact ⟨[], rfl, by simp⟩
  | cons c cs ih =>
    intro s s' hc h
    simp only [run, bind_ok_iff] at h
    obtain ⟨s1, h1, h2⟩ := h
    obtain ⟨o1, r1, p1⟩ := step_ops hP (hc c (by simp)) h1
    obtain ⟨o2, r2, p2⟩ := ih (fun c' h' => hc c' (by simp [h'])) h2
    refine ⟨o1 ++ o2, ?_, ?_⟩
    · rw [run_append, r1]; exact r2
    · intro op ho
      rcases List.mem_append.1 ho with ho | ho
      · exact p1 op ho
      · exact p2 op ho

theorem Ekf.Op.Inner.wf {Q : Mat K → Prop} {op : Op K} (h : op.Inner Q) : op.WF := by
  cases op <;> first | exact trivial | exact h.elim

theorem Station.sends_wf {c : Call K} (h : c.WF) : c.Sends Op.WF (fun _ => True) := by
  cases c <;> first | exact h | exact trivial | simp [Call.Sends]

/-- The filter of a station is reached by well-formed filter calls. -/
theorem Station.filter_reached {N : Num K} {G : GpsNum K} {p : EkfParams K} {cs : List (Call K)} {s : Station K}
    (hw : ∀ c ∈ cs, c.WF) (h : Station.run N G (Station.init N p) cs = .ok s) :
    ∃ ops, Ekf.run N.toPrim (Ekf.init N.toPrim p) ops = .ok s.ekf ∧ ∀ op ∈ ops, op.WF :=
  Station.run_ops (Q := fun _ => True) (fun _ => Ekf.Op.Inner.wf) (fun c hc => Station.sends_wf (hw c hc)) h

/-- The filter of a station after events is the filter before, after some calls. -/
theorem Station.filter_moves {N : Num K} {G : GpsNum K} {cs : List (Call K)} {s s' : Station K}
    (h : s.run N G cs = .ok s') : ∃ ops, Ekf.run N.toPrim s.ekf ops = .ok s'.ekf := by
  obtain ⟨ops, h1, _⟩ := Station.run_ops (P := fun _ => True) (Q := fun _ => True) (fun _ _ => trivial)
    (fun c _ => by cases c <;> simp [Call.Sends]) h
  exact ⟨ops, h1⟩

theorem Station.run_induct {N : Num K} {G : GpsNum K} {R : Station K → Station K → Prop} (hrefl : ∀ s, R s s)
    (htrans : ∀ a b c, R a b → R b c → R a c) (hstep : ∀ s s' c, s.step N G c = .ok s' → R s s') :
    ∀ {cs : List (Call K)} {s s' : Station K}, s.run N G cs = .ok s' → R s s'
  | [], s, s', h => by cases h; exact hrefl _
  | c :: cs, s, s', h => by
    simp only [run, bind_ok_iff] at h
    obtain ⟨s1, h1, h2⟩ := h
    exact htrans _ _ _ (hstep _ _ _ h1) (run_induct hrefl htrans hstep h2)

/-- An IMU updater is left alone by every event except its own messages. -/
theorem Station.step_imu {N : Num K} {G : GpsNum K} {s s' : Station K} {c : Call K} (h : s.step N G c = .ok s')
    {k : Nat} {u : ImuUpdater} (hu : s.imus.find? k = some u) :
    s'.imus.find? k = some u ∨ ∃ t a ac w wc r, c = .imu k t a ac w wc ∧ u.update N s.ekf t a ac w wc = .ok r ∧
      s'.imus.find? k = some r.1 ∧ s'.ekf = r.2 := by
  cases c with
  | filter op => simp only [step, bind_ok_iff, pure_res, Except.ok.injEq] at h; obtain ⟨e, h1, rfl⟩ := h; exact .inl hu
  | newImu k' id a b =>
    simp only [step, pure_res, Except.ok.injEq] at h; subst h; left
    split
    · exact hu
    · rename_i hn
      rw [UMap.find?_insert_ne _ _ (by rintro rfl; rw [hu] at hn; exact hn rfl)]; exact hu
  | newGps k' id a => simp only [step, pure_res, Except.ok.injEq] at h; subst h; left; split <;> exact hu
  | newFid k' id a b d => simp only [step, pure_res, Except.ok.injEq] at h; subst h; left; split <;> exact hu
  | newCam k' id a d => simp only [step, pure_res, Except.ok.injEq] at h; subst h; left; split <;> exact hu
  | imu k' t a ac w wc =>
    simp only [step] at h
    split at h
    · cases h; exact .inl hu
    · rename_i u' hu'
      simp only [bind_ok_iff, pure_res, Except.ok.injEq] at h
      obtain ⟨r, h1, rfl⟩ := h
      by_cases hk : k = k'
      · subst hk
        rw [hu] at hu'; cases hu'
        exact .inr ⟨t, a, ac, w, wc, r, rfl, h1, UMap.find?_insert_self _ _ _, rfl⟩
      · left
        show UMap.find? (UMap.insert s.imus k' r.1) k = _
        rw [UMap.find?_insert_ne _ _ hk]; exact hu
  | gps k' t x v =>
    simp only [step] at h
    split at h
    · cases h; exact .inl hu
    · simp only [bind_ok_iff, pure_res, Except.ok.injEq] at h
      obtain ⟨r, h1, rfl⟩ := h; exact .inl hu
  | fid k' t d =>
    simp only [step] at h
    split at h
    · cases h; exact .inl hu
    · simp only [bind_ok_iff, pure_res, Except.ok.injEq] at h
      obtain ⟨r, h1, rfl⟩ := h; exact .inl hu
  | cam k' t i fs px =>
    simp only [step] at h
    split at h
    · cases h; exact .inl hu
    · simp only [bind_ok_iff, pure_res, Except.ok.injEq] at h
      obtain ⟨r, h1, rfl⟩ := h; exact .inl hu

/-- A GPS updater is left alone by every event except its own messages. -/
theorem Station.step_gps {N : Num K} {G : GpsNum K} {s s' : Station K} {c : Call K} (h : s.step N G c = .ok s')
    {k : Nat} {u : GpsUpdater K} (hu : s.gpss.find? k = some u) :
    s'.gpss.find? k = some u ∨ ∃ t x v r, c = .gps k t x v ∧ u.update N G s.ekf t x v = .ok r ∧
      s'.gpss.find? k = some r.1 ∧ s'.ekf = r.2 := by
  cases c with
  | filter op => simp only [step, bind_ok_iff, pure_res, Except.ok.injEq] at h; obtain ⟨e, h1, rfl⟩ := h; exact .inl hu
  | newGps k' id a =>
    simp only [step, pure_res, Except.ok.injEq] at h; subst h; left
    split
    · exact hu
    · rename_i hn
      rw [UMap.find?_insert_ne _ _ (by rintro rfl; rw [hu] at hn; exact hn rfl)]; exact hu
  | newImu k' id a b => simp only [step, pure_res, Except.ok.injEq] at h; subst h; left; split <;> exact hu
  | newFid k' id a b d => simp only [step, pure_res, Except.ok.injEq] at h; subst h; left; split <;> exact hu
  | newCam k' id a d => simp only [step, pure_res, Except.ok.injEq] at h; subst h; left; split <;> exact hu
  | gps k' t x v =>
    simp only [step] at h
    split at h
    · cases h; exact .inl hu
    · rename_i u' hu'
      simp only [bind_ok_iff, pure_res, Except.ok.injEq] at h
      obtain ⟨r, h1, rfl⟩ := h
      by_cases hk : k = k'
      · subst hk
        rw [hu] at hu'; cases hu'
        exact .inr ⟨t, x, v, r, rfl, h1, UMap.find?_insert_self _ _ _, rfl⟩
      · left
        show UMap.find? (UMap.insert s.gpss k' r.1) k = _
        rw [UMap.find?_insert_ne _ _ hk]; exact hu
  | imu k' t a ac w wc =>
    simp only [step] at h
    split at h
    · cases h; exact .inl hu
    · simp only [bind_ok_iff, pure_res, Except.ok.injEq] at h
      obtain ⟨r, h1, rfl⟩ := h; exact .inl hu
  | fid k' t d =>
    simp only [step] at h
    split at h
    · cases h; exact .inl hu
    · simp only [bind_ok_iff, pure_res, Except.ok.injEq] at h
      obtain ⟨r, h1, rfl⟩ := h; exact .inl hu
  | cam k' t i fs px =>
    simp only [step] at h
    split at h
    · cases h; exact .inl hu
    · simp only [bind_ok_iff, pure_res, Except.ok.injEq] at h
      obtain ⟨r, h1, rfl⟩ := h; exact .inl hu

/-- A fiducial updater is left alone by every event except its own messages. -/
theorem Station.step_fid {N : Num K} {G : GpsNum K} {s s' : Station K} {c : Call K} (h : s.step N G c = .ok s')
    {k : Nat} {u : FidUpdater K} (hu : s.fids.find? k = some u) :
    s'.fids.find? k = some u ∨ ∃ t d r, c = .fid k t d ∧ u.update N s.ekf t d = .ok r ∧
      s'.fids.find? k = some r.1 ∧ s'.ekf = r.2 := by
  cases c with
  | filter op => simp only [step, bind_ok_iff, pure_res, Except.ok.injEq] at h; obtain ⟨e, h1, rfl⟩ := h; exact .inl hu
  | newFid k' id a b d =>
    simp only [step, pure_res, Except.ok.injEq] at h; subst h; left
    split
    · exact hu
    · rename_i hn
      rw [UMap.find?_insert_ne _ _ (by rintro rfl; rw [hu] at hn; exact hn rfl)]; exact hu
  | newImu k' id a b => simp only [step, pure_res, Except.ok.injEq] at h; subst h; left; split <;> exact hu
  | newGps k' id a => simp only [step, pure_res, Except.ok.injEq] at h; subst h; left; split <;> exact hu
  | newCam k' id a d => simp only [step, pure_res, Except.ok.injEq] at h; subst h; left; split <;> exact hu
  | fid k' t d =>
    simp only [step] at h
    split at h
    · cases h; exact .inl hu
    · rename_i u' hu'
      simp only [bind_ok_iff, pure_res, Except.ok.injEq] at h
      obtain ⟨r, h1, rfl⟩ := h
      by_cases hk : k = k'
      · subst hk
        rw [hu] at hu'; cases hu'
        exact .inr ⟨t, d, r, rfl, h1, UMap.find?_insert_self _ _ _, rfl⟩
      · left
        show UMap.find? (UMap.insert s.fids k' r.1) k = _
        rw [UMap.find?_insert_ne _ _ hk]; exact hu
  | imu k' t a ac w wc =>
    simp only [step] at h
    split at h
    · cases h; exact .inl hu
    · simp only [bind_ok_iff, pure_res, Except.ok.injEq] at h
      obtain ⟨r, h1, rfl⟩ := h; exact .inl hu
  | gps k' t x v =>
    simp only [step] at h
    split at h
    · cases h; exact .inl hu
    · simp only [bind_ok_iff, pure_res, Except.ok.injEq] at h
      obtain ⟨r, h1, rfl⟩ := h; exact .inl hu
  | cam k' t i fs px =>
    simp only [step] at h
    split at h
    · cases h; exact .inl hu
    · simp only [bind_ok_iff, pure_res, Except.ok.injEq] at h
      obtain ⟨r, h1, rfl⟩ := h; exact .inl hu

/-- A camera updater is left alone by every event except its own messages. -/
theorem Station.step_cam {N : Num K} {G : GpsNum K} {s s' : Station K} {c : Call K} (h : s.step N G c = .ok s')
    {k : Nat} {u : MsckfUpdater K} (hu : s.cams.find? k = some u) :
    s'.cams.find? k = some u ∨ ∃ t i fs px r, c = .cam k t i fs px ∧ u.update N s.ekf t i fs px = .ok r ∧
      s'.cams.find? k = some r.1 ∧ s'.ekf = r.2 := by
  cases c with
  | filter op => simp only [step, bind_ok_iff, pure_res, Except.ok.injEq] at h; obtain ⟨e, h1, rfl⟩ := h; exact .inl hu
  | newCam k' id a d =>
    simp only [step, pure_res, Except.ok.injEq] at h; subst h; left
    split
    · exact hu
    · rename_i hn
      rw [UMap.find?_insert_ne _ _ (by rintro rfl; rw [hu] at hn; exact hn rfl)]; exact hu
  | newImu k' id a b => simp only [step, pure_res, Except.ok.injEq] at h; subst h; left; split <;> exact hu
  | newGps k' id a => simp only [step, pure_res, Except.ok.injEq] at h; subst h; left; split <;> exact hu
  | newFid k' id a b d => simp only [step, pure_res, Except.ok.injEq] at h; subst h; left; split <;> exact hu
  | cam k' t i fs px =>
    simp only [step] at h
    split at h
    · cases h; exact .inl hu
    · rename_i u' hu'
      simp only [bind_ok_iff, pure_res, Except.ok.injEq] at h
      obtain ⟨r, h1, rfl⟩ := h
      by_cases hk : k = k'
      · subst hk
        rw [hu] at hu'; cases hu'
        exact .inr ⟨t, i, fs, px, r, rfl, h1, UMap.find?_insert_self _ _ _, rfl⟩
      · left
        show UMap.find? (UMap.insert s.cams k' r.1) k = _
        rw [UMap.find?_insert_ne _ _ hk]; exact hu
  | imu k' t a ac w wc =>
    simp only [step] at h
    split at h
    · cases h; exact .inl hu
    · simp only [bind_ok_iff, pure_res, Except.ok.injEq] at h
      obtain ⟨r, h1, rfl⟩ := h; exact .inl hu
  | gps k' t x v =>
    simp only [step] at h
    split at h
    · cases h; exact .inl hu
    · simp only [bind_ok_iff, pure_res, Except.ok.injEq] at h
      obtain ⟨r, h1, rfl⟩ := h; exact .inl hu
  | fid k' t d =>
    simp only [step] at h
    split at h
    · cases h; exact .inl hu
    · simp only [bind_ok_iff, pure_res, Except.ok.injEq] at h
      obtain ⟨r, h1, rfl⟩ := h; exact .inl hu

theorem ImuUpdater.update_latch {N : Num K} {u : ImuUpdater} {e : Ekf K} {time : K} {acc : V3 K} {accCov : M3 K}
    {omg : V3 K} {omgCov : M3 K} {r : ImuUpdater × Ekf K} (h : u.update N e time acc accCov omg omgCov = .ok r)
    (hm : u.motionDetected = true) : r.1.motionDetected = true := by
  obtain ⟨b, u', e1, hz, hu, _⟩ := update_form h
  rw [hu]
  cases hz with
  | late _ => exact hm
  | moved => rfl
  | still => exact hm

variable [IsStrictOrderedRing K]

theorem M3.isCov_diag {d : V3 K} (h : ∀ i, 0 ≤ d i) : (M3.toMat (Matrix.diagonal d)).IsCov := by
  refine IsCov.diag (B := M3.toMat (Matrix.diagonal d)) rfl (fun i => if h : i < 3 then d ⟨i, h⟩ else 0) ?_ ?_
  · intro i hi
    have : i < 3 := hi
    simp only [this, dif_pos]
    exact h _
  · intro i j hi hj
    have h1 : i < 3 := hi
    have h2 : j < 3 := hj
    by_cases hij : i = j
    · subst hij; simp [M3.toMat, h1, h2]
    · simp [M3.toMat, h1, h2, hij, Matrix.diagonal]

theorem blockDiag_cov {A B R : Mat K} {R1 : Mat K} (hA : A.IsCov) (hB : B.IsCov) (ra : A.rows = 3) (rb : B.rows = 3)
    (h1 : (Mat.zero 6 6 : Mat K).setBlock 0 0 3 3 A = .ok R1) (h2 : R1.setBlock 3 3 3 3 B = .ok R) : R.IsCov := by
  have ca := hA.square
  have cb := hB.square
  obtain ⟨o, h', hr, hc, hg⟩ := insertInMatrix_spec B A 3 3 (by omega) (by omega)
  refine IsCov.same (IsCov.insert hB hA (p := 3) (by omega) h') ⟨?_, ?_, ?_⟩
  all_goals
    obtain ⟨_, _, rfl⟩ := Mat.setBlock_ok_iff.1 h1
    obtain ⟨_, _, rfl⟩ := Mat.setBlock_ok_iff.1 h2
  · simp only [Mat.zero]; omega
  · simp only [Mat.zero]; omega
  · intro i j hi hj
    rw [hg i j (by omega) (by omega)]
    have i6 : i < 6 := by omega
    have j6 : j < 6 := by omega
    clear h1 h2 hg h'
    simp only [Mat.zero, ra, rb, ← ca, ← cb, Nat.zero_le, true_and, Nat.zero_add, Nat.sub_zero]
    split_ifs <;> first | rfl | omega | (congr 1 <;> omega)

theorem zeroAccNoise_cov {u : ImuUpdater} {ac wc : M3 K} {R : Mat K} (ha : (M3.toMat ac).IsCov)
    (hw : (M3.toMat wc).IsCov) (h : u.zeroAccNoise ac wc = .ok R) : R.IsCov := by
  unfold ImuUpdater.zeroAccNoise at h
  simp only [bind_ok_iff] at h
  obtain ⟨R1, h1, h⟩ := h
  split at h
  · rw [if_pos ‹_›] at h1
    exact blockDiag_cov ha hw rfl rfl h1 h
  · rw [if_neg ‹_›] at h1
    cases h
    obtain ⟨_, _, rfl⟩ := Mat.setBlock_ok_iff.1 h1
    refine IsCov.same ha ⟨rfl, rfl, fun i j hi hj => ?_⟩
    have hi' : i < 3 := hi
    have hj' : j < 3 := hj
    simp only [Mat.zero, Nat.zero_le, true_and, Nat.zero_add, Nat.sub_zero]
    rw [if_pos ⟨hi', hj'⟩]

theorem measurementNoise_cov {ac wc : M3 K} {R : Mat K} (ha : (M3.toMat ac).IsCov)
    (hw : (M3.toMat wc).IsCov) (h : ImuUpdater.measurementNoise ac wc = .ok R) : R.IsCov := by
  unfold ImuUpdater.measurementNoise at h
  simp only [bind_ok_iff] at h
  obtain ⟨R1, h1, h⟩ := h
  exact blockDiag_cov ha hw rfl rfl h1 h

theorem noiseOf_cov {d : BoardDetection K} {R : Mat K} (hp : ∀ i, 0 ≤ d.posError i) (ha : ∀ i, 0 ≤ d.angError i)
    (h : FidUpdater.noiseOf d = .ok R) : R.IsCov := by
  unfold FidUpdater.noiseOf at h
  simp only [bind_ok_iff] at h
  obtain ⟨R1, h1, h⟩ := h
  exact blockDiag_cov (M3.isCov_diag hp) (M3.isCov_diag ha) rfl rfl h1 h

theorem identity_cov (n : Nat) (c : K) (hc : 0 ≤ c) : ((Mat.identity n n : Mat K).smul c).IsCov := by
  refine IsCov.diag rfl (fun _ => c) (fun _ _ => hc) fun i j _ _ => ?_
  simp only [Mat.smul, Mat.identity]
  split <;> simp

theorem Station.sends_cov {c : Call K} (hw : c.WF) (h : c.NoiseIsCov) :
    c.Sends (fun op => op.WF ∧ op.CovOK) Mat.IsCov := by
  cases c with
  | filter op => exact ⟨hw, h⟩
  | imu k t a ac w wc => exact ⟨fun u R hr => zeroAccNoise_cov h.1 h.2 hr, fun R hr => measurementNoise_cov h.1 h.2 hr⟩
  | gps k t x c =>
    refine ⟨h, fun n => ?_⟩
    refine IsCov.same (identity_cov n (1 : K) zero_le_one) ⟨rfl, rfl, fun i j _ _ => ?_⟩
    simp [Mat.smul]
  | fid k t d => exact fun R hr => noiseOf_cov h.1 h.2 hr
  | cam k t i fs px => exact fun n => identity_cov n _ (mul_self_nonneg _)
  | newImu => trivial
  | newGps => trivial
  | newFid => trivial
  | newCam => trivial

theorem Ekf.Op.Inner.cov {op : Op K} (h : op.Inner Mat.IsCov) : op.WF ∧ op.CovOK := by
  refine ⟨h.wf, ?_⟩
  cases op <;> first | exact h | exact trivial | exact h.elim

end EkfCal
