import Verif.Lemmas.CovInv
import Verif.Props.C07
import Mathlib.Tactic.Positivity

/-! # The covariance of a standard-form filter along a history -/

set_option linter.unusedSectionVars false
set_option linter.unusedSimpArgs false

namespace EkfCal
open Finset
variable {K : Type} [Field K] [LinearOrder K]

theorem mem_accumIdx {α : Type} {g : α → Nat → α} {dim : α → Nat} {m : UMap α} {i : Nat} {x : Nat × α}
    (h : x ∈ accumIdx g dim m i) : ∃ y ∈ m, y.1 = x.1 ∧ ∃ j, x.2 = g y.2 j := by
  induction m generalizing i with
  | nil => cases h
  | cons y ys ih =>
    obtain ⟨k, a⟩ := y
    simp only [accumIdx, List.mem_cons] at h
    rcases h with rfl | h
    · exact ⟨(k, a), by simp, rfl, _, rfl⟩
    · obtain ⟨z, hz, h1, h2⟩ := ih h
      exact ⟨z, by simp [hz], h1, h2⟩

/-- Stabilities stored for the calibrated sensors are non-negative. -/
def Stab (s : State K) : Prop := ∀ x ∈ s.noise, 0 ≤ x.2

theorem mapNoise_forall {α : Type} {noise : α → List (Nat × K)} {m : UMap α} :
    (∀ x ∈ mapNoise noise m, 0 ≤ x.2) ↔ ∀ y ∈ m, ∀ x ∈ noise y.2, 0 ≤ x.2 := by
  unfold mapNoise
  simp only [List.mem_flatMap]
  exact ⟨fun h y hy x hx => h x ⟨y, hy, hx⟩, fun h x ⟨y, hy, hx⟩ => h y hy x hx⟩

theorem Stab.iff {s : State K} : Stab s ↔
    (∀ y ∈ s.imus, ∀ x ∈ y.2.noise, 0 ≤ x.2) ∧ (∀ y ∈ s.gpss, ∀ x ∈ y.2.noise, 0 ≤ x.2) ∧
    (∀ y ∈ s.cams, ∀ x ∈ y.2.noise, 0 ≤ x.2) ∧ ∀ y ∈ s.fids, ∀ x ∈ y.2.noise, 0 ≤ x.2 := by
  simp only [← mapNoise_forall]
  unfold Stab State.noise
  simp only [List.mem_append, or_imp, forall_and, and_assoc]

theorem stab_accumIdx {α : Type} {g : α → Nat → α} {dim : α → Nat} {noise : α → List (Nat × K)} {m : UMap α} {i : Nat}
    (hg : ∀ a j, (noise (g a j)).map Prod.snd = (noise a).map Prod.snd)
    (h : ∀ y ∈ m, ∀ x ∈ noise y.2, 0 ≤ x.2) : ∀ y ∈ accumIdx g dim m i, ∀ x ∈ noise y.2, 0 ≤ x.2 := by
  intro y hy x hx
  obtain ⟨z, hz, _, j, h2⟩ := mem_accumIdx hy
  rw [h2] at hx
  have : x.2 ∈ (noise z.2).map Prod.snd := by rw [← hg _ j]; exact List.mem_map_of_mem hx
  obtain ⟨w, hw, he⟩ := List.mem_map.1 this
  rw [← he]; exact h z hz w hw

theorem stab_reindex {s : State K} (h : Stab s) : Stab s.reindex := by
  rw [Stab.iff] at *
  obtain ⟨h1, h2, h3, h4⟩ := h
  refine ⟨stab_accumIdx (fun a j => ?_) h1, stab_accumIdx (fun a j => ?_) h2, stab_accumIdx (fun a j => ?_) h3,
    stab_accumIdx (fun a j => ?_) h4⟩
  · unfold ImuState.noise ImuState.reindex
    cases a.isExtrinsic <;> cases a.isIntrinsic <;> simp
  · unfold GpsState.noise GpsState.reindex
    cases a.isExtrinsic <;> simp
  · unfold CamState.noise CamState.reindex
    cases a.isExtrinsic <;> simp
  · unfold FidState.noise FidState.reindex
    cases a.isExtrinsic <;> simp

theorem stab_insert {α : Type} {noise : α → List (Nat × K)} {m : UMap α} {k : Nat} {v : α}
    (h : ∀ y ∈ m, ∀ x ∈ noise y.2, 0 ≤ x.2) (hv : ∀ x ∈ noise v, 0 ≤ x.2) :
    ∀ y ∈ UMap.insert m k v, ∀ x ∈ noise y.2, 0 ≤ x.2 := by
  intro y hy
  rcases UMap.mem_insert hy with rfl | hy
  · exact hv
  · exact h y hy

namespace Ekf

theorem refresh_cov {N : Prim K} {e e' : Ekf K} (h : refreshIndices N e = .ok e') : e'.cov = e.cov := by
  rw [(refreshIndices_frame h).1]

theorem stab_refresh {N : Prim K} {e e' : Ekf K} (h : refreshIndices N e = .ok e') (hs : Stab e.state) :
    Stab e'.state := by
  rw [refreshIndices_state h]; exact stab_reindex hs

theorem stab_pruneLoop {N : Prim K} {n : Nat} {e e' : Ekf K} (hs : Stab e.state) (h : pruneLoop N n e = .ok e') :
    Stab e'.state := by
  induction n generalizing e with
  | zero => cases h; exact hs
  | succ n ih =>
    simp only [pruneLoop, bind_ok_iff] at h
    obtain ⟨e1, h1, h2⟩ := h
    refine ih ?_ h2
    obtain ⟨_, _, ⟨_, rfl⟩ | ⟨_, _, _, _, _, h⟩⟩ := pruneAt_form h1
    · exact hs
    · exact stab_refresh h (by exact hs)

theorem stab_augmentTimed {N : Prim K} {e e' : Ekf K} (hs : Stab e.state) (h : augmentTimed N e = .ok e') :
    Stab e'.state := by
  obtain ⟨_, rfl⟩ | ⟨_, _, e1, _, h1, h⟩ := augmentTimed_form h
  · exact hs
  · have hs1 : Stab e1.state := stab_pruneLoop (by exact hs) h1
    obtain ⟨_, rfl⟩ | ⟨_, e2, e3, h2, h3, rfl⟩ := h
    · exact hs1
    · have := stab_refresh h2 (by exact hs1)
      obtain ⟨_, _, _, _, rfl⟩ := augmentAtBack_form h3
      exact this

theorem stab_step {N : Prim K} {e e' : Ekf K} {op : Op K} (hs : Stab e.state) (ho : op.CovOK)
    (h : step N e op = .ok e') : Stab e'.state := by
  have hs' := Stab.iff.1 hs
  obtain ⟨s1, s2, s3, s4⟩ := hs'
  cases op with
  | registerIMU id s c =>
    obtain ⟨_, rfl⟩ | ⟨_, _, _, h⟩ := registerIMU_form h
    · exact hs
    · exact stab_refresh h (Stab.iff.2 ⟨stab_insert s1 ho.2, s2, s3, s4⟩)
  | registerGPS id s c =>
    obtain ⟨_, rfl⟩ | ⟨_, _, _, h⟩ := registerGPS_form h
    · exact hs
    · exact stab_refresh h (Stab.iff.2 ⟨s1, stab_insert s2 ho.2, s3, s4⟩)
  | registerCamera id s c =>
    obtain ⟨_, rfl⟩ | ⟨_, _, _, _, h⟩ := registerCamera_form h
    · exact hs
    · exact stab_refresh h (Stab.iff.2 ⟨s1, s2, stab_insert s3 ho.2, s4⟩)
  | registerFiducial s c =>
    obtain ⟨_, rfl⟩ | ⟨_, _, _, h⟩ := registerFiducial_form h
    · exact hs
    · exact stab_refresh h (Stab.iff.2 ⟨s1, s2, s3, stab_insert s4 ho.2⟩)
  | predict t =>
    obtain ⟨_, rfl⟩ | ⟨_, _, _, _, h⟩ := predict_form h
    · exact hs
    · exact stab_augmentTimed (by exact hs) h
  | frame c f =>
    obtain ⟨_, rfl⟩ | ⟨_, e1, h1, h2⟩ := augmentFrame_form h
    · exact hs
    · obtain ⟨_, _, _, _, rfl⟩ := augmentAtBack_form h2
      show Stab e1.state
      obtain ⟨_, h1⟩ | ⟨_, _, _, _, _, _, h1⟩ := h1
      · exact stab_refresh h1 (by exact hs)
      · exact stab_refresh h1 (by exact hs)
  | kalman j r n =>
    obtain ⟨s, c, v, rfl, h, _, _⟩ := kalmanUpdate_form h
    unfold Stab; rw [(addVec_noise h).1]; exact hs
  | getImu id =>
    cases h
    refine Stab.iff.2 ⟨?_, s2, s3, s4⟩
    rw [← mapNoise_forall] at s1 ⊢
    simp only [getImuState, mapNoise]
    rw [flatMap_touch ImuState.noise id _ rfl]; exact s1
  | getGps id =>
    cases h
    refine Stab.iff.2 ⟨s1, ?_, s3, s4⟩
    rw [← mapNoise_forall] at s2 ⊢
    simp only [getGpsState, mapNoise]
    rw [flatMap_touch GpsState.noise id _ rfl]; exact s2
  | getCam id =>
    cases h
    refine Stab.iff.2 ⟨s1, s2, ?_, s4⟩
    rw [← mapNoise_forall] at s3 ⊢
    simp only [getCamState, mapNoise]
    rw [flatMap_touch CamState.noise id _ rfl]; exact s3
  | getAug c f t =>
    simp only [step, bind_ok_iff, pure_res, Except.ok.injEq] at h
    obtain ⟨r, h, rfl⟩ := h
    obtain ⟨key, hk⟩ := getAugState_form h
    rw [hk]; exact hs
  | initializeAt t b => cases h; exact hs
  | setMaxTrackLength n => cases h; exact hs
  | setGpsReference p a => cases h; exact hs
  | setZeroAcceleration b => cases h; exact hs
  | initializeGravity => cases h; exact hs
  | localTime t =>
    simp only [step, Except.ok.injEq] at h
    subst h
    unfold calculateLocalTime
    split <;> exact hs
  | setBodyProcessNoise v => cases h; exact hs
  | attemptGpsInit t x f =>
    obtain ⟨_, _, _, _, rfl⟩ := attemptGpsInit_form h
    exact hs
  | setBodyMotion a w α => cases h; exact hs

theorem inserted_cov [IsStrictOrderedRing K] {b : Bool} {c cov out : Mat K} {n p : Nat}
    (hc : (⟨n, n, c.get⟩ : Mat K).IsCov) (hP : cov.IsCov) (h : Inserted b c cov n p out) : out.IsCov := by
  unfold Inserted at h
  split at h
  · obtain ⟨blk, h1, h2⟩ := h
    rw [Mat.block_ok_iff] at h1
    have hb : blk.IsCov := by
      rw [h1.2]
      simpa using hc
    exact IsCov.insert hb hP ((insertInMatrix_ok_iff _ _ _ _).1 ⟨_, h2⟩).1 h2
  · rw [h]; exact hP

theorem cov_augmentAtBack [IsStrictOrderedRing K] {e e' : Ekf K} {k : Nat} (hu : e.useRoot = false) (hP : e.cov.IsCov)
    (h : augmentAtBack e k = .ok e') : e'.cov.IsCov := by
  obtain ⟨a, out, _, h1, rfl⟩ := augmentAtBack_form h
  rw [hu] at h1
  by_cases hi : a.index < 12 ∨ e.cov.rows < a.index
  · obtain ⟨u, h2⟩ := C07_undefined e.cov a.index hi
    rw [h1] at h2; cases h2
  · exact C07_psd e.cov out a.index (by omega) (by omega) hP h1

theorem cov_augmentFrame [IsStrictOrderedRing K] {N : Prim K} {e e' : Ekf K} {c f : Nat} (hu : e.useRoot = false)
    (hP : e.cov.IsCov) (h : augmentFrame N e c f = .ok e') : e'.cov.IsCov := by
  obtain ⟨_, rfl⟩ | ⟨_, e1, h1, h2⟩ := augmentFrame_form h
  · exact hP
  · obtain ⟨_, h1⟩ | ⟨_, _, _, out, _, h3, h1⟩ := h1
    · refine cov_augmentAtBack ?_ ?_ h2
      · rw [(frame2_refresh h1).useRoot]; exact hu
      · rw [refresh_cov h1]; exact hP
    · refine cov_augmentAtBack ?_ ?_ h2
      · rw [(frame2_refresh h1).useRoot]; exact hu
      · rw [refresh_cov h1]; exact IsCov.remove hP h3

theorem cov_pruneLoop [IsStrictOrderedRing K] {N : Prim K} {n : Nat} {e e' : Ekf K} (hP : e.cov.IsCov)
    (h : pruneLoop N n e = .ok e') : e'.cov.IsCov := by
  induction n generalizing e with
  | zero => cases h; exact hP
  | succ n ih =>
    simp only [pruneLoop, bind_ok_iff] at h
    obtain ⟨e1, h1, h2⟩ := h
    refine ih ?_ h2
    obtain ⟨_, _, ⟨_, rfl⟩ | ⟨_, _, _, _, h3, h⟩⟩ := pruneAt_form h1
    · exact hP
    · rw [refresh_cov h]; exact IsCov.remove hP h3

theorem cov_augmentTimed [IsStrictOrderedRing K] {N : Prim K} {e e' : Ekf K} (hu : e.useRoot = false)
    (hP : e.cov.IsCov) (h : augmentTimed N e = .ok e') : e'.cov.IsCov := by
  obtain ⟨_, rfl⟩ | ⟨_, _, e1, _, h1, h⟩ := augmentTimed_form h
  · exact hP
  · have hs1 : e1.cov.IsCov := cov_pruneLoop (by exact hP) h1
    obtain ⟨_, rfl⟩ | ⟨_, e2, e3, h2, h3, rfl⟩ := h
    · exact hs1
    · show e3.cov.IsCov
      refine cov_augmentAtBack (e := e2) ?_ ?_ h3
      · rw [(frame2_refresh h2).useRoot]; exact (frame2_pruneLoop h1).useRoot.trans hu
      · rw [refresh_cov h2]; exact hs1

/-- Propagation of a covariance with non-negative noise over a non-negative time is a covariance. -/
theorem cov_predictCov [IsStrictOrderedRing K] {N : Prim K} {P Q out : Mat K} {n : Nat} {dt : K} (hP : P.IsCov)
    (hn : P.rows = n) (h18 : 18 ≤ n) (hQr : Q.rows = n) (hQc : Q.cols = n) (hQ : ∀ i, i < n → 0 ≤ Q.get i i)
    (hdt : 0 ≤ dt) (h : predictCov N false n P Q dt = .ok out) : out.IsCov := by
  subst hn
  obtain ⟨o, h', hr, hc, hg⟩ := predictCov_spec N P Q dt hP.square h18 hQr hQc
  rw [h] at h'
  cases h'
  let D : Mat K := ⟨P.rows, P.rows, fun k l => if k = l then Q.get k k * dt else 0⟩
  have hD : D.IsCov := IsCov.diag rfl (fun k => Q.get k k * dt) (fun i hi => mul_nonneg (hQ i hi) hdt) fun i j _ _ => rfl
  let S : Mat K := ⟨P.rows, P.rows, fun k l => P.get k l + if k = l then Q.get k k * dt else 0⟩
  have hS : S.IsCov := IsCov.add hP hD rfl rfl rfl fun i j _ _ => rfl
  exact IsCov.congr hS (by omega) (transition dt) fun i j hi hj => hg i j (by omega) (by omega)

/-- Everything known about a standard-form filter in good order. -/
structure CovInv (N : Prim K) (e : Ekf K) : Prop where
  root : e.useRoot = false
  inv : Inv e
  cov : e.cov.IsCov
  noise : NoiseInv N (fun v => ∀ k, k < 18 → 0 ≤ v.get k) True e
  stab : Stab e.state

theorem CovInv.diag_nonneg {N : Prim K} {e : Ekf K} (h : CovInv N e) (i : Nat) : 0 ≤ e.processNoise.get i i := by
  obtain ⟨_, d, body, hd, hp, hb⟩ := h.noise
  rw [hp, h.root]
  simp only [Bool.false_eq_true, if_false, if_true]
  by_cases hi : i < 18
  · rw [hd.bodyRows i hi]
    rcases hb with hb | ⟨v, hv, hb⟩
    · rw [hb.2.1 i hi]
    · rw [hb i hi]; exact hv i hi
  · rcases hd.src i (by omega) with h0 | ⟨x, hx, h0⟩
    · rw [h0]
    · rw [h0]; exact h.stab x hx

/-- Joseph form: the updated covariance is a covariance, whatever the gain. -/
theorem cov_kalman [IsStrictOrderedRing K] {N : Prim K} {e e' : Ekf K} {J : Mat K} {r : Vec K} {R : Mat K}
    (hu : e.useRoot = false) (hP : e.cov.IsCov) (hR : R.IsCov) (h : kalmanUpdate N e J r R = .ok e') : e'.cov.IsCov := by
  obtain ⟨⟨_, _, hRr, _, _⟩, G, s, c, rfl, _, _, _, _, hr, hc, hg⟩ := kalman_std hu h
  let A : Mat K := ⟨e.cov.rows, e.cov.rows, congr e.cov.rows (iGH G J) e.cov.get⟩
  let B : Mat K := ⟨e.cov.rows, e.cov.rows, congr J.rows G.get R.get⟩
  have hA : A.IsCov := IsCov.congr hP rfl _ fun _ _ _ _ => rfl
  have hB : B.IsCov := IsCov.congr hR rfl G.get fun i j _ _ => by rw [hRr]
  exact IsCov.add hA hB rfl (by dsimp only; omega) hr fun i j _ _ => hg i j

theorem cov_step [IsStrictOrderedRing K] {N : Prim K} {e e' : Ekf K} {op : Op K} (hi : CovInv N e) (ho : op.CovOK)
    (h : step N e op = .ok e') : e'.cov.IsCov := by
  have hP := hi.cov
  have hu := hi.root
  cases op with
  | registerIMU id s c =>
    obtain ⟨_, rfl⟩ | ⟨_, _, hI, h⟩ := registerIMU_form h
    · exact hP
    · rw [refresh_cov h]; exact inserted_cov ho.1 hP hI
  | registerGPS id s c =>
    obtain ⟨_, rfl⟩ | ⟨_, _, hI, h⟩ := registerGPS_form h
    · exact hP
    · rw [refresh_cov h]; exact inserted_cov ho.1 hP hI
  | registerCamera id s c =>
    obtain ⟨_, rfl⟩ | ⟨_, _, _, hI, h⟩ := registerCamera_form h
    · exact hP
    · rw [refresh_cov h]; exact inserted_cov ho.1 hP hI
  | registerFiducial s c =>
    obtain ⟨_, rfl⟩ | ⟨_, _, hI, h⟩ := registerFiducial_form h
    · exact hP
    · rw [refresh_cov h]; exact inserted_cov ho.1 hP hI
  | predict t =>
    obtain ⟨_, rfl⟩ | ⟨ht, b, out, hc, h⟩ := predict_form h
    · exact hP
    · refine cov_augmentTimed ?_ ?_ h
      · exact hu
      · obtain ⟨_, _, rfl⟩ | ⟨_, _, hc⟩ := hc
        · exact hP
        · rw [hu] at hc
          refine cov_predictCov hP hi.inv.covRows ?_ hi.inv.noiseRows hi.inv.noiseCols (fun i _ => hi.diag_nonneg i)
            (sub_nonneg.2 ht) hc
          rw [hi.inv.size]; unfold State.dim; omega
  | frame c f => exact cov_augmentFrame hu hP h
  | kalman j r n => exact cov_kalman hu hP ho h
  | getImu id => cases h; exact hP
  | getGps id => cases h; exact hP
  | getCam id => cases h; exact hP
  | getAug c f t =>
    simp only [step, bind_ok_iff, pure_res, Except.ok.injEq] at h
    obtain ⟨r, h, rfl⟩ := h
    obtain ⟨key, hk⟩ := getAugState_form h
    rw [hk]; exact hP
  | initializeAt t b => cases h; exact hP
  | setMaxTrackLength n => cases h; exact hP
  | setGpsReference p a => cases h; exact hP
  | setZeroAcceleration b => cases h; exact hP
  | initializeGravity => cases h; exact hP
  | localTime t =>
    simp only [step, Except.ok.injEq] at h
    subst h
    unfold calculateLocalTime
    split <;> exact hP
  | setBodyProcessNoise v => cases h; exact hP
  | attemptGpsInit t x f =>
    obtain ⟨_, _, _, _, rfl⟩ := attemptGpsInit_form h
    exact hP
  | setBodyMotion a w α => cases h; exact hP

theorem step_useRoot {N : Prim K} {e e' : Ekf K} {op : Op K} (h : step N e op = .ok e') : e'.useRoot = e.useRoot := by
  have := step_frame h
  cases op <;> simp only [StepFrame] at this <;> first | exact this.useRoot | (subst this; rfl) | skip
  · split at this
    · rw [this]
    · exact this.useRoot
  · subst this
    unfold calculateLocalTime
    split <;> rfl
  · obtain ⟨_, _, _, _, rfl⟩ := attemptGpsInit_form h
    rfl

theorem covInv_step [IsStrictOrderedRing K] {N : Prim K} {e e' : Ekf K} {op : Op K} (hi : CovInv N e) (hw : op.WF)
    (ho : op.CovOK) (h : step N e op = .ok e') : CovInv N e' where
  root := (step_useRoot h).trans hi.root
  inv := inv_step hi.inv hw h
  cov := cov_step hi ho h
  noise := noise_step hi.noise (by cases op <;> first | exact ho | trivial) h
  stab := stab_step hi.stab ho h

theorem covInv_init [IsStrictOrderedRing K] (N : Prim K) (p : EkfParams K) (hu : p.useRoot = false)
    (hn : ∀ k, k < 18 → 0 ≤ p.processNoise.get k) : CovInv N (init N p) where
  root := hu
  inv := inv_init N p
  cov := by
    have : (init N p).cov = (Mat.identity bodySize bodySize).smul (1 / 100) := by
      unfold init; dsimp only; rw [hu]; rfl
    rw [this]
    refine IsCov.diag rfl (fun _ => 1 / 100) (fun _ _ => by positivity) fun i j _ _ => ?_
    simp only [Mat.smul, Mat.identity]
    split <;> simp
  noise := noise_init_std trivial p hu hn
  stab := by intro x hx; cases hx

theorem covInv_run [IsStrictOrderedRing K] {N : Prim K} {ops : List (Op K)} {e e' : Ekf K} (hi : CovInv N e)
    (hw : ∀ op ∈ ops, op.WF) (ho : ∀ op ∈ ops, op.CovOK) (h : run N e ops = .ok e') : CovInv N e' := by
  induction ops generalizing e with
  | nil => cases h; exact hi
  | cons op ops ih =>
    simp only [run, bind_ok_iff] at h
    obtain ⟨e1, h1, h2⟩ := h
    exact ih (covInv_step hi (hw op (by simp)) (ho op (by simp)) h1) (fun o h => hw o (by simp [h]))
      (fun o h => ho o (by simp [h])) h2

end Ekf
end EkfCal
