import Verif.Lemmas.CamRows
import Verif.Lemmas.Comp
import Verif.Props.C03
import Verif.Props.C16
import Verif.Props.C17
import Verif.Props.C33
import Verif.Props.C36
import Verif.Props.C42
import Verif.Props.C46
import Verif.Model.SimFeatures

/-!
# C59: camera-track measurements compare the observed with the predicted image, with true derivatives
-/

set_option linter.unusedSectionVars false

namespace EkfCal
open Ekf

/-! ## Derivatives of the predicted image -/

theorem IsJacobian.comp {n m k : Nat} {f : (Fin m → ℝ) → Fin k → ℝ} {g : (Fin n → ℝ) → Fin m → ℝ} {x : Fin n → ℝ}
    {A : Matrix (Fin k) (Fin m) ℝ} {B : Matrix (Fin m) (Fin n) ℝ} (hf : IsJacobian f (g x) A) (hg : IsJacobian g x B) :
    IsJacobian (fun y => f (g y)) x (A * B) := by
  unfold IsJacobian at *
  refine (HasFDerivAt.comp x hf hg).congr_fderiv ?_
  ext y
  simp

theorem pinhole_jacobian {c : Intrinsics ℝ} (h : c.Pinhole) (v : V2 ℝ) : distortionJacobian v c = 1 := by
  obtain ⟨_, h1, h2, h3, h4⟩ := h
  funext i j
  fin_cases i <;> fin_cases j <;> simp [distortionJacobian, h1, h2, h3, h4]

theorem inCamera_steps {u : MsckfUpdater ℝ} {a : AugState ℝ} (h : a.ang.normSq = 1) (F : V3 ℝ) :
    u.angC.toMat.transpose.mulVec (a.ang.toMat.transpose.mulVec (F - a.pos) - u.posC) = u.inCamera a F := by
  rw [MsckfUpdater.inCamera, MsckfUpdater.centre]
  congr 1
  rw [show F - (a.ang.toMat.mulVec u.posC + a.pos) = (F - a.pos) - a.ang.toMat.mulVec u.posC by abel,
    Matrix.mulVec_sub _ (F - a.pos), Matrix.mulVec_mulVec, toMat_orthogonal h, Matrix.one_mulVec]

theorem feature_jacobian (u : MsckfUpdater ℝ) (a : AugState ℝ) (F : V3 ℝ) (hz : u.inCamera a F 2 ≠ 0) :
    IsJacobian (fun x => u.predicted a x) F
      (projectionJacobian (u.inCamera a F) * (u.angC.toMat.transpose * a.ang.toMat.transpose)) := by
  refine IsJacobian.comp (f := project) (g := fun x => u.inCamera a x) (C35_projection _ hz) ?_
  simp only [inCamera_eq]
  exact (((isJacobian_id F).sub (isJacobian_const (u.centre a) F)).mulLeft _).congr (by rw [sub_zero, Matrix.mul_one])

theorem camera_jacobian (u : MsckfUpdater ℝ) (a : AugState ℝ) (F : V3 ℝ) (ha : a.ang.normSq = 1) (hz : u.inCamera a F 2 ≠ 0) :
    IsJacobian (fun x => MsckfUpdater.predicted { u with posC := x } a F) u.posC
      (-(projectionJacobian (u.inCamera a F) * u.angC.toMat.transpose)) := by
  have h : ∀ x, MsckfUpdater.inCamera { u with posC := x } a F =
      u.angC.toMat.transpose.mulVec (a.ang.toMat.transpose.mulVec (F - a.pos) - x) := fun x =>
    (inCamera_steps (u := { u with posC := x }) ha F).symm
  have h2 := IsJacobian.comp (f := project) (g := fun x => MsckfUpdater.inCamera { u with posC := x } a F) (x := u.posC)
    (C35_projection _ hz) (B := -u.angC.toMat.transpose) (by
      simp only [h]
      exact (((isJacobian_const _ _).sub (isJacobian_id u.posC)).mulLeft _).congr (by rw [zero_sub, Matrix.mul_neg, Matrix.mul_one]))
  exact h2.congr (Matrix.mul_neg _ _)

/-- A position that moves the pose with weight `w`. -/
theorem pose_jacobian (u : MsckfUpdater ℝ) (a : AugState ℝ) (F : V3 ℝ) (hz : u.inCamera a F 2 ≠ 0) (s : PoseSource) (w : ℝ) (c : V3 ℝ)
    (hm : ∀ x, s.moves x = c + w • x) (hn : s.moves s.now = a.pos) :
    IsJacobian (fun x => u.predicted { a with pos := s.moves x } F) s.now
      (-(w • (projectionJacobian (u.inCamera a F) * (u.angC.toMat.transpose * a.ang.toMat.transpose)))) := by
  have hz' : u.inCamera { a with pos := s.moves s.now } F = u.inCamera a F := by rw [hn]
  have h2 := IsJacobian.comp (f := project) (g := fun x => u.inCamera { a with pos := s.moves x } F) (x := s.now)
    (A := projectionJacobian (u.inCamera a F))
    (B := -(w • (u.angC.toMat.transpose * a.ang.toMat.transpose))) (by rw [hz']; exact C35_projection _ hz) (by
      simp only [inCamera_eq, MsckfUpdater.centre, hm]
      refine (((isJacobian_const F s.now).sub ((isJacobian_const (a.ang.toMat.mulVec u.posC) s.now).add
        ((isJacobian_const c s.now).add ((isJacobian_id s.now).smul w)))).mulLeft _).congr ?_
      simp)
  refine h2.congr ?_
  simp

/-! ## The rows -/

theorem block_zero_of_rest {N : Num ℝ} {u : MsckfUpdater ℝ} {n cam i : Nat} {F : V3 ℝ} {a : AugState ℝ} {p : FeaturePoint ℝ} {Hf Hc : Mat ℝ}
    {res : Vec ℝ} (h : RowFacts N u n cam i F a p Hf Hc res) {c : Nat}
    (h1 : ∀ k, k < 3 → ¬ (u.isCamExtrinsic = true ∧ InCols (c + k) cam 6))
    (h2 : ∀ k, k < 3 → ∀ x ∈ writtenAt n a, ¬ InCols (c + k) x.1 3 ∧ ¬ InCols (c + k) x.2.1 3) : Hc.block23 (2 * i) c = 0 := by
  funext x y
  exact h.rest _ _ (by omega) (by have := x.2; omega) (h1 y.1 y.2) (h2 y.1 y.2)

/-- From the blocks written to the derivatives, when the pose is computed from `A` and `B` with weight `α`. -/
theorem rows_between {N : Num ℝ} {u : MsckfUpdater ℝ} {n cam i : Nat} {F : V3 ℝ} {a : AugState ℝ} {p : FeaturePoint ℝ} {Hf Hc : Mat ℝ}
    {res : Vec ℝ} (h : RowFacts N u n cam i F a p Hf Hc res) (hp : u.intr.Pinhole) (ha : a.ang.normSq = 1)
    (hz : u.inCamera a F 2 ≠ 0) (A B : AugState ℝ) (last : Prop) [Decidable last] (hpos : a.pos = A.pos + a.alpha • (B.pos - A.pos))
    (hi : a.index = A.index) (h18 : 18 ≤ A.index) (hcam : u.isCamExtrinsic = true → 18 ≤ cam ∧ cam + 6 ≤ A.index)
    (hl : last → A.index + 6 = n) (hb : ¬ last → B.index = A.index + 6 ∧ A.index + 12 ≤ n) :
    ObservationRows u cam a p F (betweenSources A B last a.alpha) (2 * i) Hf Hc res := by
  have hd := pinhole_jacobian hp (normalisePixel u.intr p.x p.y)
  have hs := inCamera_steps (u := u) ha F
  have e1 := h.residual
  have e2 := h.feature
  have e3 := h.camera
  have e4 := h.pose
  rw [hs] at e1
  rw [hs, hd, Matrix.one_mul] at e2
  rw [hs, hd, Matrix.one_mul] at e3
  rw [hs, hd, Matrix.one_mul] at e4
  have hmA : ∀ x : V3 ℝ, x + a.alpha • (B.pos - x) = a.alpha • B.pos + (1 - a.alpha) • x := fun x => by
    rw [smul_sub, sub_smul, one_smul]; abel
  have hmB : ∀ x : V3 ℝ, A.pos + a.alpha • (x - A.pos) = (A.pos - a.alpha • A.pos) + a.alpha • x := fun x => by
    rw [smul_sub]; abel
  have hw : a.alpha ≠ 0 → writtenAt n a = [(A.index, A.index + 3, 1 - a.alpha),
      if A.index + 12 > n then (0, 9, a.alpha) else (A.index + 6, A.index + 9, a.alpha)] := fun h => by
    rw [writtenAt, if_neg h, hi]
  have hw0 : a.alpha = 0 → writtenAt n a = [(A.index, A.index + 3, 1)] := fun h => by rw [writtenAt, if_pos h, hi]
  have hcond : (A.index + 12 > n) ↔ last := by
    by_cases h : last
    · have := hl h; simp only [h, iff_true]; omega
    · have := hb h; simp only [h, iff_false]; omega
  have hpB : (if last then 0 else B.index) = if A.index + 12 > n then 0 else A.index + 6 := by
    by_cases h : last
    · rw [if_pos h, if_pos (hcond.2 h)]
    · rw [if_neg h, if_neg (fun g => h (hcond.1 g)), (hb h).1]
  have haB : (if last then 9 else B.index + 3) = if A.index + 12 > n then 9 else A.index + 9 := by
    by_cases h : last
    · rw [if_pos h, if_pos (hcond.2 h)]
    · rw [if_neg h, if_neg (fun g => h (hcond.1 g)), (hb h).1]
  refine ⟨⟨_, (pixelAt_iff hp.toUsable _ _ _).2 rfl, e1⟩, by rw [e2]; exact feature_jacobian u a F hz, fun he => by rw [e3 he]; exact camera_jacobian u a F ha hz, ?_, ?_⟩
  · intro s hs
    rcases List.mem_cons.1 hs with rfl | hs
    · refine (pose_jacobian u a F hz _ (1 - a.alpha) (a.alpha • B.pos) hmA hpos.symm).congr ?_
      by_cases h0 : a.alpha = 0
      · rw [e4 (A.index, A.index + 3, 1) (by rw [hw0 h0]; exact List.mem_cons_self ..), h0, sub_zero]
      · rw [e4 (A.index, A.index + 3, 1 - a.alpha) (by rw [hw h0]; exact List.mem_cons_self ..)]
    · rw [List.mem_singleton] at hs
      subst hs
      dsimp only
      refine (pose_jacobian u a F hz ⟨if last then 0 else B.index, if last then 9 else B.index + 3, B.pos,
        fun x => A.pos + a.alpha • (x - A.pos)⟩ a.alpha (A.pos - a.alpha • A.pos) hmB hpos.symm).congr ?_
      rw [hpB]
      by_cases h0 : a.alpha = 0
      · rw [h0, zero_smul, neg_zero]
        symm
        refine block_zero_of_rest h ?_ ?_
        · rintro k hk ⟨he, hc⟩
          have := hcam he
          simp only [InCols] at hc
          split at hc <;> omega
        · intro k hk x hx
          rw [hw0 h0, List.mem_singleton] at hx
          subst hx
          simp only [InCols]
          split <;> omega
      · by_cases hc : A.index + 12 > n
        · rw [if_pos hc, e4 (0, 9, a.alpha) (by rw [hw h0, if_pos hc]; simp)]
        · rw [if_neg hc, e4 (A.index + 6, A.index + 9, a.alpha) (by rw [hw h0, if_neg hc]; simp)]
  · intro r c r1 r2 hc hr
    refine h.rest r c r1 r2 hc ?_
    have q1 := hr _ (List.mem_cons_self ..)
    have q2 := hr _ (List.mem_cons_of_mem _ (List.mem_cons_self ..))
    dsimp only at q1 q2
    rw [hpB, haB] at q2
    intro x hx
    by_cases h0 : a.alpha = 0
    · rw [hw0 h0, List.mem_singleton] at hx
      subst hx
      exact q1
    · rw [hw h0] at hx
      rcases List.mem_cons.1 hx with rfl | hx
      · exact q1
      · rw [List.mem_singleton] at hx
        subst hx
        by_cases hc : A.index + 12 > n
        · rw [if_pos hc]; rw [if_pos hc, if_pos hc] at q2; exact q2
        · rw [if_neg hc]; rw [if_neg hc, if_neg hc] at q2; exact q2

/-- From the blocks written to the derivatives, when the pose is a clone itself. -/
theorem rows_clone {N : Num ℝ} {u : MsckfUpdater ℝ} {n cam i : Nat} {F : V3 ℝ} {a : AugState ℝ} {p : FeaturePoint ℝ} {Hf Hc : Mat ℝ}
    {res : Vec ℝ} (h : RowFacts N u n cam i F a p Hf Hc res) (hp : u.intr.Pinhole) (ha : a.ang.normSq = 1)
    (hz : u.inCamera a F 2 ≠ 0) (h0 : a.alpha = 0) :
    ObservationRows u cam a p F [a.source] (2 * i) Hf Hc res := by
  have hd := pinhole_jacobian hp (normalisePixel u.intr p.x p.y)
  have hs := inCamera_steps (u := u) ha F
  have e1 := h.residual
  have e2 := h.feature
  have e3 := h.camera
  have e4 := h.pose
  rw [hs] at e1
  rw [hs, hd, Matrix.one_mul] at e2
  rw [hs, hd, Matrix.one_mul] at e3
  rw [hs, hd, Matrix.one_mul] at e4
  have hw0 : writtenAt n a = [(a.index, a.index + 3, 1)] := by rw [writtenAt, if_pos h0]
  refine ⟨⟨_, (pixelAt_iff hp.toUsable _ _ _).2 rfl, e1⟩, by rw [e2]; exact feature_jacobian u a F hz, fun he => by rw [e3 he]; exact camera_jacobian u a F ha hz, ?_, ?_⟩
  · intro s hs
    rw [List.mem_singleton] at hs
    subst hs
    refine (pose_jacobian u a F hz _ 1 0 (fun x => by rw [one_smul, zero_add]; rfl) rfl).congr ?_
    exact (e4 (a.index, a.index + 3, 1) (by rw [hw0]; exact List.mem_cons_self ..)).symm
  · intro r c r1 r2 hc hr
    refine h.rest r c r1 r2 hc ?_
    rw [hw0]
    intro x hx
    rw [List.mem_singleton] at hx
    subst hx
    exact hr _ (List.mem_cons_self ..)

/-! ## Clones and windows of a filter with a history -/

section windows
variable {K : Type} [Field K] [LinearOrder K]

/-- Clones are stored with weight zero: the weight belongs to the answer of a query. -/
theorem alpha_closed (N : Prim K) : (CompPred.Closed N { aug := fun a => a.alpha = 0 } : Prop) where
  bodyDefault := trivial
  bodyIdx := fun _ _ _ => trivial
  bodyAdd := fun _ _ _ _ _ => trivial
  bodyPredict := fun _ _ _ _ => trivial
  bodyMotion := fun _ _ _ _ _ => trivial
  imuDefault := trivial
  imuIdx := fun _ _ _ => trivial
  imuAdd := fun _ _ _ _ _ _ => trivial
  gpsDefault := trivial
  gpsIdx := fun _ _ _ => trivial
  gpsAdd := fun _ _ _ _ _ _ => trivial
  camDefault := trivial
  camIdx := fun _ _ _ => trivial
  camAdd := fun _ _ _ _ _ _ => trivial
  fidIdx := fun _ _ _ => trivial
  fidAdd := fun _ _ _ _ _ _ => trivial
  augIdx := fun _ _ h => h
  augAdd := fun s v i r h hs => by
    unfold AugState.addVecAt at h
    obtain ⟨_, _, h⟩ := bind_ok_iff.1 h
    obtain ⟨_, _, h⟩ := bind_ok_iff.1 h
    rw [← Except.ok.inj h]
    exact hs
  clone := fun _ _ _ => rfl

theorem Ekf.Reachable.alpha {N : Prim K} {e : Ekf K} (h : e.Reachable N) {k : Nat} {a : AugState K} (ha : a ∈ e.window k) :
    a.alpha = 0 := by
  obtain ⟨p, ops, _, hr⟩ := h
  have hs : State.All (K := K) { aug := fun a => a.alpha = 0 } e.state :=
    all_run (alpha_closed N) (all_init (alpha_closed N) p) (fun op _ => by cases op <;> trivial) hr
  exact all_window hs k a ha

theorem find_of_window {e : Ekf K} {k : Nat} {a : AugState K} (ha : a ∈ e.window k) : e.state.augs.find? k = some (e.window k) := by
  unfold window UMap.getD at *
  cases h : e.state.augs.find? k with
  | none => rw [h] at ha; cases ha
  | some w => rfl

/-- The call does not give a camera the number 0. -/
def Ekf.Op.NumberedCamera : Op K → Prop
  | .registerCamera id _ _ => id ≠ 0
  | .frame cam _ => cam ≠ 0
  | _ => True

/-- Only the window that queries interpolate in has clones. -/
def Ekf.OneWindow (e : Ekf K) : Prop := ∀ k, k ≠ e.queryKey → e.window k = []

theorem window_nil_iff (e : Ekf K) (k : Nat) : e.window k = [] ↔ e.stamps k = [] := by simp [stamps]

theorem stamps_nil_of {e e' : Ekf K} {k : Nat} (h : e'.records k = e.records k) (hw : e.window k = []) : e'.window k = [] := by
  rw [window_nil_iff] at *
  rw [stamps_of_records h]; exact hw

theorem oneWindow_step {N : Prim K} {e e' : Ekf K} {op : Op K} (h : step N e op = .ok e') (hall : e.augType ≠ .all)
    (hop : op.NumberedCamera) (ho : e.OneWindow) (h0 : e.augType = .primary → e.primaryCameraId = 0 → e.window 0 = []) :
    e'.OneWindow ∧ (e'.augType = .primary → e'.primaryCameraId = 0 → e'.window 0 = []) := by
  have hty : e'.augType = e.augType := (step_config h).augType
  obtain ⟨_, _, hpr, _⟩ := camera_step h
  -- windows that were empty and are not written stay empty
  have keep : ∀ k, (∀ f, op ≠ .frame k f) → (AugType.Timed e.augType → k ≠ 0) → e.window k = [] → e'.window k = [] := by
    intro k hf ht hk
    by_cases hp : ∃ t, op = .predict t
    · obtain ⟨t, rfl⟩ := hp
      rcases stamps_predict h with rfl | ⟨_, h1, h2⟩
      · exact hk
      · by_cases hk0 : k = 0
        · subst hk0
          rcases h2 with h2 | ⟨h2, _⟩
          · exact stamps_nil_of h2 hk
          · exact absurd rfl (ht h2)
        · rw [window_nil_iff] at *
          rw [h1 k hk0]; exact hk
    · by_cases hfr : ∃ c g, op = .frame c g
      · obtain ⟨c, g, rfl⟩ := hfr
        rcases records_frame h k with ⟨_, h1⟩ | ⟨_, h1⟩
        · exact stamps_nil_of h1 hk
        · rw [if_neg (fun hkc => hf g (by rw [hkc]))] at h1
          exact stamps_nil_of h1 hk
      · rw [window_nil_iff] at *
        rw [stamps_step h (fun t ht => hp ⟨t, ht⟩) (fun c g hcg => hfr ⟨c, g, hcg⟩) k]; exact hk
  by_cases hprim : e.augType = .primary
  · have hnt : ¬ AugType.Timed e.augType := by rw [hprim]; rintro (h | h) <;> cases h
    have hq : e.queryKey = e.primaryCameraId := by unfold queryKey; rw [if_pos hprim]
    have hq' : e'.queryKey = e'.primaryCameraId := by unfold queryKey; rw [if_pos (hty.trans hprim)]
    -- all windows but the primary one are empty, and all of them if there is no primary camera yet
    have hall0 : ∀ k, (k ≠ e.primaryCameraId ∨ e.primaryCameraId = 0) → e.window k = [] := by
      intro k hk
      by_cases hkp : k = e.primaryCameraId
      · rcases hk with hk | hk
        · exact absurd hkp hk
        · rw [hkp, hk]; exact h0 hprim hk
      · exact ho k (by rw [hq]; exact hkp)
    have hpk : ∀ k, (k ≠ e'.primaryCameraId ∨ e'.primaryCameraId = 0) → (k ≠ e.primaryCameraId ∨ e.primaryCameraId = 0) := by
      intro k hk
      rw [hpr] at hk
      cases hc : op.newCamera e with
      | nil => rw [hc] at hk; exact hk
      | cons x l =>
        by_cases hz : e.primaryCameraId = 0
        · exact .inr hz
        · have : (x :: l).foldl (fun p c => if p = 0 then c.1 else p) e.primaryCameraId = e.primaryCameraId := by
            have gen : ∀ l : List (Nat × K), l.foldl (fun p c => if p = 0 then c.1 else p) e.primaryCameraId = e.primaryCameraId := by
              intro l
              induction l with
              | nil => rfl
              | cons y l ih => rw [List.foldl_cons, if_neg hz]; exact ih
            exact gen _
          rw [hc, this] at hk
          exact hk
    have fin : ∀ k, (k ≠ e'.primaryCameraId ∨ e'.primaryCameraId = 0) → e'.window k = [] := by
      intro k hk
      have hk1 := hpk k hk
      by_cases hf : ∃ f, op = .frame k f
      · obtain ⟨f, rfl⟩ := hf
        rcases records_frame h k with ⟨_, h1⟩ | ⟨hc, _⟩
        · exact stamps_nil_of h1 (hall0 k hk1)
        · rcases hc with hc | ⟨_, hc⟩
          · exact absurd hc hall
          · rcases hk1 with hk1 | hk1
            · exact absurd hc hk1
            · exact absurd (hc.trans hk1) hop
      · exact keep k (fun f hf' => hf ⟨f, hf'⟩) (fun h => absurd h hnt) (hall0 k hk1)
    refine ⟨fun k hk => fin k (.inl (by rw [← hq']; exact hk)), fun _ hz => fin 0 (.inr hz)⟩
  · have hq : e.queryKey = 0 := by unfold queryKey; rw [if_neg hprim]
    have hq' : e'.queryKey = 0 := by unfold queryKey; rw [if_neg (by rw [hty]; exact hprim)]
    refine ⟨fun k hk => ?_, fun hp => absurd (hty.symm.trans hp) hprim⟩
    rw [hq'] at hk
    by_cases hf : ∃ f, op = .frame k f
    · obtain ⟨f, rfl⟩ := hf
      rcases records_frame h k with ⟨_, h1⟩ | ⟨hc, _⟩
      · exact stamps_nil_of h1 (ho k (by rw [hq]; exact hk))
      · rcases hc with hc | ⟨hc, _⟩
        · exact absurd hc hall
        · exact absurd hc hprim
    · exact keep k (fun f hf' => hf ⟨f, hf'⟩) (fun _ => hk) (ho k (by rw [hq]; exact hk))

/-- Unless every camera is cloned, only one window has clones (cameras are numbered from 1). -/
theorem C59_one_window (N : Prim K) (p : EkfParams K) (ops : List (Op K)) (e : Ekf K) (h : run N (init N p) ops = .ok e)
    (hall : e.augType ≠ .all) (hop : ∀ op ∈ ops, op.NumberedCamera) : e.OneWindow := by
  have key : ∀ (ops : List (Op K)) (a : Ekf K), run N a ops = .ok e → (∀ op ∈ ops, op.NumberedCamera) → a.OneWindow →
      (a.augType = .primary → a.primaryCameraId = 0 → a.window 0 = []) → e.OneWindow := by
    intro ops
    induction ops with
    | nil => intro a h _ ho _; cases h; exact ho
    | cons op ops ih =>
      intro a h hn ho h0
      simp only [run, bind_ok_iff] at h
      obtain ⟨b, h1, h2⟩ := h
      have ht : a.augType ≠ .all := by
        have h3 : SameConfig a e := run_induct (P := fun _ => True) (R := SameConfig) SameConfig.refl
          (fun _ _ _ => SameConfig.trans) (fun _ _ _ _ => step_config) (ops := op :: ops) (fun _ _ => trivial)
          (by simp only [run, bind_ok_iff]; exact ⟨b, h1, h2⟩)
        rw [← h3.augType]; exact hall
      obtain ⟨g1, g2⟩ := oneWindow_step h1 ht (hn op (by simp)) ho h0
      exact ih b h2 (fun o ho => hn o (by simp [ho])) g1 g2
  exact key ops _ h hop (fun _ _ => rfl) (fun _ _ => rfl)

end windows

/-! ## The rows of a feature -/

/-- The three arrays a feature with `n` observations starts from. -/
def blankRows (n size : Nat) : Mat ℝ × Mat ℝ × Vec ℝ := (Mat.zero (2 * n) 3, Mat.zero (2 * n) size, ⟨2 * n, fun _ => 0⟩)

section rows
variable (N : Num ℝ) (e : Ekf ℝ) (u : MsckfUpdater ℝ) (g : CamState ℝ) (f : FeatureTrack ℝ) (F : V3 ℝ)
  (out : Ekf ℝ × Mat ℝ × Mat ℝ × Vec ℝ)

theorem camOf_eq {u : MsckfUpdater ℝ} {e : Ekf ℝ} {g : CamState ℝ} (hg : e.state.cams.find? u.id = some g) : u.camOf e = g := by
  simp [MsckfUpdater.camOf, UMap.getD, hg]

/-- The rows of a feature when the camera's own frames are cloned: the pose of an observation is the clone of its frame, or
the default one if there is none. -/
theorem frame_rows (hr : e.Reachable N.toPrim) (e1 : Ekf ℝ) (hl : e.Looked e1) (hg : e.state.cams.find? u.id = some g)
    (hx : u.isCamExtrinsic = true → g.isExtrinsic = true)
    (h : u.observeLoop N e.stateSize (u.camOf e).index F 0 f.track e1 (blankRows f.track.length e.stateSize) = .ok out)
    (hc : e.ClonesFrame u.id) (j : Nat) (p : FeaturePoint ℝ) (hj : f.track[j]? = some p) :
    ∃ a, e.poseFor N.toPrim u.id p = .ok a ∧ RowFacts N u e.stateSize g.index j F a p out.2.1 out.2.2.1 out.2.2.2 ∧
      ((a ∈ e.window u.id ∧ a.frameId = p.frameId) ∨ (a = AugState.default ∧ ∀ b ∈ e.window u.id, b.frameId ≠ p.frameId)) := by
  have hinv := hr.inv
  have hcam := camOf_eq hg
  have found : ∀ p : FeaturePoint ℝ, ∃ a, e.poseFor N.toPrim u.id p = .ok a ∧
      ((a ∈ e.window u.id ∧ a.frameId = p.frameId) ∨ (a = AugState.default ∧ ∀ b ∈ e.window u.id, b.frameId ≠ p.frameId)) := by
    intro p
    rcases findFrame_foldl p.frameId (e.window u.id) AugState.default with ⟨_, h2⟩ | ⟨l1, a, l2, hw, ha, hl, _⟩
    · obtain ⟨a, e', h1, _, h3⟩ := C16_unknown_violated N.toPrim e u.id p.frameId p.time hc h2
      exact ⟨a, getAugState_pose h1, .inr ⟨h3, h2⟩⟩
    · obtain ⟨e', h1, _⟩ := C16_found N.toPrim e u.id p.frameId p.time hc l1 l2 a hw ha hl
      exact ⟨a, getAugState_pose h1, .inl ⟨by rw [hw]; simp, ha⟩⟩
  have hpose : ∀ p ∈ f.track, ∀ a, e.poseFor N.toPrim u.id p = .ok a → (a.alpha = 0 ∨ 18 ≤ a.index) ∧
      (u.isCamExtrinsic = true → 18 ≤ (u.camOf e).index ∧ ((u.camOf e).index + 6 ≤ a.index ∨
        (a.alpha = 0 ∧ a.index + 6 ≤ (u.camOf e).index))) := by
    intro p hpt a ha
    obtain ⟨a', ha', hm⟩ := found p
    rw [ha] at ha'
    cases ha'
    rw [hcam]
    rcases hm with ⟨hm, _⟩ | ⟨rfl, _⟩
    · exact ⟨.inl (hr.alpha hm), fun he => ⟨(cam_columns hinv.tiles hg (hx he)).1,
        .inl (cam_aug_columns hinv.tiles hg (hx he) (find_of_window hm) hm)⟩⟩
    · refine ⟨.inl rfl, fun he => ?_⟩
      have := (cam_columns hinv.tiles hg (hx he)).1
      exact ⟨this, .inr ⟨rfl, by show 0 + 6 ≤ _; omega⟩⟩
  obtain ⟨_, _, _, _, _, hrows⟩ := observeLoop_rows N u e.stateSize (u.camOf e).index F f.track 0 e1 _ _ _ out h
    (fun p hpt a ha => hpose p hpt a (by rw [← poseFor_looked N.toPrim hl]; exact ha)) (fun _ _ _ => rfl)
  obtain ⟨a, ha, hf⟩ := hrows j p hj
  rw [poseFor_looked N.toPrim hl] at ha
  rw [zero_add, hcam] at hf
  obtain ⟨a', ha', hm⟩ := found p
  rw [ha] at ha'
  cases ha'
  exact ⟨a, ha, hf, hm⟩

/-- **Frame-based cloning**: every observation of a feature whose frames are in the window gets the rows of the clone of its
own frame (no lens distortion). -/
theorem C59_frame_partial (hr : e.Reachable N.toPrim) (e1 : Ekf ℝ) (hl : e.Looked e1) (hg : e.state.cams.find? u.id = some g)
    (hx : u.isCamExtrinsic = true → g.isExtrinsic = true) (hp : u.intr.Pinhole)
    (h : u.observeLoop N e.stateSize (u.camOf e).index F 0 f.track e1 (blankRows f.track.length e.stateSize) = .ok out)
    (hc : e.ClonesFrame u.id) (hin : ∀ p ∈ f.track, ∃ a ∈ e.window u.id, a.frameId = p.frameId)
    (hsee : ∀ p ∈ f.track, ∀ a, e.poseFor N.toPrim u.id p = .ok a → a.ang.normSq = 1 ∧ u.inCamera a F 2 ≠ 0)
    (j : Nat) (p : FeaturePoint ℝ) (hj : f.track[j]? = some p) :
    ∃ a ∈ e.window u.id, a.frameId = p.frameId ∧ e.poseFor N.toPrim u.id p = .ok a ∧
      ObservationRows u g.index a p F [a.source] (2 * j) out.2.1 out.2.2.1 out.2.2.2 := by
  obtain ⟨a, ha, hf, hm⟩ := frame_rows N e u g f F out hr e1 hl hg hx h hc j p hj
  have hpt := List.mem_of_getElem? hj
  rcases hm with ⟨hm, hfr⟩ | ⟨_, hn⟩
  · obtain ⟨hu, hz⟩ := hsee p hpt a ha
    exact ⟨a, hm, hfr, ha, rows_clone hf hp hu hz (hr.alpha hm)⟩
  · obtain ⟨b, hb, hbf⟩ := hin p hpt
    exact absurd hbf (hn b hb)

theorem projection_ne_zero {x : V3 ℝ} (h : x 2 ≠ 0) : projectionJacobian x ≠ 0 := fun h0 => by
  have := congrFun (congrFun h0 0) 0
  simp [projectionJacobian] at this
  exact h this

theorem mul_rotations_cancel {q r : Quat ℝ} (hq : q.normSq = 1) (hr : r.normSq = 1) {A B : Matrix (Fin 2) (Fin 3) ℝ}
    (h : A * (q.toMat.transpose * r.toMat.transpose) = B * (q.toMat.transpose * r.toMat.transpose)) : A = B := by
  have key : ∀ C : Matrix (Fin 2) (Fin 3) ℝ, C * (q.toMat.transpose * r.toMat.transpose) * (r.toMat * q.toMat) = C := fun C => by
    rw [Matrix.mul_assoc, Matrix.mul_assoc, ← Matrix.mul_assoc r.toMat.transpose, toMat_orthogonal hr, Matrix.one_mul,
      toMat_orthogonal hq, Matrix.mul_one]
  rw [← key A, h, key B]

/-- **Violated for a frame that is no longer in the window** (or never was): the pose used is the default one, which no part
of the state moves; still the rows say that the image moves with the position of the body. -/
theorem C59_absent_violated (hr : e.Reachable N.toPrim) (e1 : Ekf ℝ) (hl : e.Looked e1) (hg : e.state.cams.find? u.id = some g)
    (hx : u.isCamExtrinsic = true → g.isExtrinsic = true) (hp : u.intr.Pinhole)
    (h : u.observeLoop N e.stateSize (u.camOf e).index F 0 f.track e1 (blankRows f.track.length e.stateSize) = .ok out)
    (hc : e.ClonesFrame u.id) (j : Nat) (p : FeaturePoint ℝ) (hj : f.track[j]? = some p)
    (hn : ∀ a ∈ e.window u.id, a.frameId ≠ p.frameId) (hu : u.angC.normSq = 1)
    (hz : u.inCamera AugState.default F 2 ≠ 0) :
    (∀ b : BodyState ℝ, (e.withBody b).poseFor N.toPrim u.id p = .ok AugState.default) ∧ out.2.2.1.block23 (2 * j) 0 ≠ 0 := by
  constructor
  · intro b
    obtain ⟨a, e', h1, _, h3⟩ := C16_unknown_violated N.toPrim (e.withBody b) u.id p.frameId p.time hc hn
    rw [← h3]; exact getAugState_pose h1
  · obtain ⟨a, ha, hf, hm⟩ := frame_rows N e u g f F out hr e1 hl hg hx h hc j p hj
    rcases hm with ⟨hm, hfr⟩ | ⟨rfl, _⟩
    · exact absurd hfr (hn a hm)
    · have hone : (AugState.default : AugState ℝ).ang.normSq = 1 := by simp [AugState.default, Quat.one, Quat.normSq]
      have hw : writtenAt e.stateSize (AugState.default : AugState ℝ) = [(0, 3, 1)] := by
        rw [writtenAt, if_pos (show (AugState.default : AugState ℝ).alpha = 0 from rfl)]; rfl
      have e4 := hf.pose (0, 3, 1) (by rw [hw]; exact List.mem_cons_self ..)
      rw [inCamera_steps hone F, pinhole_jacobian hp, Matrix.one_mul, one_smul] at e4
      rw [e4]
      intro h0
      refine projection_ne_zero hz (mul_rotations_cancel hu hone ?_)
      rw [Matrix.zero_mul]
      exact neg_eq_zero.1 h0

theorem IsJacobian.unique {n m : Nat} {f : (Fin n → ℝ) → Fin m → ℝ} {x : Fin n → ℝ} {A B : Matrix (Fin m) (Fin n) ℝ}
    (hA : IsJacobian f x A) (hB : IsJacobian f x B) : A = B := by
  have := HasFDerivAt.unique hA hB
  exact Matrix.toLin'.injective (LinearMap.toContinuousLinearMap.injective this)

/-- **Violated for lenses that distort**: the point is where the filter believes it is and the observation is its exact image,
as the simulator computes it; still the residual is not zero, and the feature's columns are not the derivative of the
predicted image. -/
theorem C59_distortion_violated (hr : e.Reachable N.toPrim) (e1 : Ekf ℝ) (hl : e.Looked e1) (hg : e.state.cams.find? u.id = some g)
    (hx : u.isCamExtrinsic = true → g.isExtrinsic = true) (hp : u.intr.Usable) (hk : 0 < u.intr.k1 ∧ u.intr.k2 = 0 ∧
      u.intr.p1 = 0 ∧ u.intr.p2 = 0)
    (h : u.observeLoop N e.stateSize (u.camOf e).index F 0 f.track e1 (blankRows f.track.length e.stateSize) = .ok out)
    (hc : e.ClonesFrame u.id) (j : Nat) (p : FeaturePoint ℝ) (hj : f.track[j]? = some p) (a : AugState ℝ)
    (ha : e.poseFor N.toPrim u.id p = .ok a) (hu : u.angC.normSq = 1) (hua : a.ang.normSq = 1) (hz : u.inCamera a F 2 ≠ 0)
    (hoff : u.predicted a F ≠ 0) (hobs : (p.x, p.y) = cvProject u.intr (u.inCamera a F)) :
    out.2.2.2.part2 (2 * j) ≠ 0 ∧ ¬ IsJacobian (fun x => u.predicted a x) F (out.2.1.block23 (2 * j) 0) := by
  obtain ⟨a', ha', hf, _⟩ := frame_rows N e u g f F out hr e1 hl hg hx h hc j p hj
  rw [ha] at ha'
  cases ha'
  obtain ⟨hk1, hk2, hk3, hk4⟩ := hk
  set v := u.predicted a F with hv
  have hr2 : 0 < v 0 * v 0 + v 1 * v 1 := by
    rcases (add_nonneg (mul_self_nonneg (v 0)) (mul_self_nonneg (v 1))).lt_or_eq with h | h
    · exact h
    · exfalso
      apply hoff
      have h0 : v 0 = 0 := mul_self_eq_zero.1 (by nlinarith [mul_self_nonneg (v 0), mul_self_nonneg (v 1)])
      have h1 : v 1 = 0 := mul_self_eq_zero.1 (by nlinarith [mul_self_nonneg (v 0), mul_self_nonneg (v 1)])
      funext i
      fin_cases i
      · exact h0
      · exact h1
  have hmeas : normalisePixel u.intr p.x p.y = (1 + u.intr.k1 * (v 0 * v 0 + v 1 * v 1)) • v := by
    rw [← pixelAt_iff hp, hobs, cvProject, Intrinsics.pixelAt, Prod.mk.injEq]
    have v0 : v 0 = u.inCamera a F 0 * (1 / u.inCamera a F 2) := by rw [hv]; simp [MsckfUpdater.predicted]; ring
    have v1 : v 1 = u.inCamera a F 1 * (1 / u.inCamera a F 2) := by rw [hv]; simp [MsckfUpdater.predicted]; ring
    simp only [if_neg hz, ← v0, ← v1, hk2, hk3, hk4, Pi.smul_apply, smul_eq_mul]
    constructor <;> ring
  have hc1 : 0 < u.intr.k1 * (v 0 * v 0 + v 1 * v 1) := mul_pos hk1 hr2
  constructor
  · rw [hf.residual, hmeas, inCamera_steps hua F]
    have : project (u.inCamera a F) = v := rfl
    rw [this, add_smul, one_smul, add_sub_cancel_left]
    intro h0
    rcases smul_eq_zero.1 h0 with h1 | h1
    · exact hc1.ne' h1
    · exact hoff h1
  · intro hJ
    have h1 := (feature_jacobian u a F hz).unique hJ
    rw [hf.feature, inCamera_steps hua F] at h1
    have h2 := mul_rotations_cancel hu hua h1
    set w := normalisePixel u.intr p.x p.y with hw
    have q0 := congrFun (congrFun h2 0) 0
    have q1 := congrFun (congrFun h2 1) 1
    simp only [projectionJacobian, distortionJacobian, hk2, hk3, hk4, Matrix.mul_apply, Fin.sum_univ_two, Matrix.of_apply,
      Matrix.cons_val_zero, Matrix.cons_val_one, Matrix.cons_val', Matrix.cons_val_fin_one, mul_zero, zero_mul, add_zero,
      zero_add] at q0 q1
    have hz' : (1 / u.inCamera a F 2) ≠ 0 := one_div_ne_zero hz
    have q0' := mul_right_cancel₀ hz' ((_root_.one_mul _).trans q0)
    have q1' := mul_right_cancel₀ hz' ((_root_.one_mul _).trans q1)
    have hw2 : w 0 * w 0 + w 1 * w 1 = 0 := by
      have : u.intr.k1 * (w 0 * w 0 + w 1 * w 1) = 0 := by linarith
      exact (mul_eq_zero.1 this).resolve_left hk1.ne'
    rw [hmeas] at hw2
    simp only [Pi.smul_apply, smul_eq_mul] at hw2
    have : (1 + u.intr.k1 * (v 0 * v 0 + v 1 * v 1)) ^ 2 * (v 0 * v 0 + v 1 * v 1) = 0 := by linarith
    have : 0 < (1 + u.intr.k1 * (v 0 * v 0 + v 1 * v 1)) ^ 2 * (v 0 * v 0 + v 1 * v 1) := by positivity
    linarith

/-- **Time-based cloning, before the window**: an observation older than every clone gets the rows of the oldest clone, with
its own position (no lens distortion). -/
theorem C59_before_partial (hr : e.Reachable N.toPrim) (e1 : Ekf ℝ) (hl : e.Looked e1) (hg : e.state.cams.find? u.id = some g)
    (hx : u.isCamExtrinsic = true → g.isExtrinsic = true) (hp : u.intr.Pinhole)
    (h : u.observeLoop N e.stateSize (u.camOf e).index F 0 f.track e1 (blankRows f.track.length e.stateSize) = .ok out)
    (hc : ¬ e.ClonesFrame u.id) (first : AugState ℝ) (hf : (e.window e.queryKey).head? = some first)
    (ht : ∀ p ∈ f.track, p.time < first.time)
    (hsee : ∀ p ∈ f.track, ∀ a, e.poseFor N.toPrim u.id p = .ok a → a.ang.normSq = 1 ∧ u.inCamera a F 2 ≠ 0)
    (j : Nat) (p : FeaturePoint ℝ) (hj : f.track[j]? = some p) :
    ∃ a, e.poseFor N.toPrim u.id p = .ok a ∧ a.pos = first.pos ∧
      ObservationRows u g.index a p F [first.source] (2 * j) out.2.1 out.2.2.1 out.2.2.2 := by
  have hinv := hr.inv
  have hcam := camOf_eq hg
  have hfw : first ∈ e.window e.queryKey := List.mem_of_mem_head? hf
  have hfind := find_of_window hfw
  have found : ∀ p ∈ f.track, ∃ a, e.poseFor N.toPrim u.id p = .ok a ∧ a.pos = first.pos ∧ a.index = first.index ∧ a.alpha = 0 := by
    intro p hpt
    obtain ⟨a, e', h1, h2⟩ := C17_before N.toPrim e u.id p.frameId p.time hc first hf (ht p hpt)
    exact ⟨a, getAugState_pose h1, h2⟩
  have hpose : ∀ p ∈ f.track, ∀ a, e.poseFor N.toPrim u.id p = .ok a → (a.alpha = 0 ∨ 18 ≤ a.index) ∧
      (u.isCamExtrinsic = true → 18 ≤ (u.camOf e).index ∧ ((u.camOf e).index + 6 ≤ a.index ∨
        (a.alpha = 0 ∧ a.index + 6 ≤ (u.camOf e).index))) := by
    intro p hpt a ha
    obtain ⟨a', h1, _, h2, h3⟩ := found p hpt
    rw [ha] at h1
    cases h1
    rw [hcam, h2]
    exact ⟨.inl h3, fun he => ⟨(cam_columns hinv.tiles hg (hx he)).1, .inl (cam_aug_columns hinv.tiles hg (hx he) hfind hfw)⟩⟩
  obtain ⟨_, _, _, _, _, hrows⟩ := observeLoop_rows N u e.stateSize (u.camOf e).index F f.track 0 e1 _ _ _ out h
    (fun p hpt a ha => hpose p hpt a (by rw [← poseFor_looked N.toPrim hl]; exact ha)) (fun _ _ _ => rfl)
  obtain ⟨a, ha, hrow⟩ := hrows j p hj
  rw [poseFor_looked N.toPrim hl] at ha
  rw [zero_add, hcam] at hrow
  have hpt := List.mem_of_getElem? hj
  obtain ⟨a', h1, h2, h3, h4⟩ := found p hpt
  rw [ha] at h1
  cases h1
  obtain ⟨hu, hz⟩ := hsee p hpt a ha
  refine ⟨a, ha, h2, ?_⟩
  have : first.source = a.source := by unfold AugState.source; rw [h2, h3]
  rw [this]
  exact rows_clone hrow hp hu hz h4

/-- **Time-based cloning**: an observation between the oldest clone and now gets the rows of the two poses around it, with
the weights of the interpolation; the newer of the two may be the body itself (no lens distortion). -/
theorem C59_between_partial (hr : e.Reachable N.toPrim) (e1 : Ekf ℝ) (hl : e.Looked e1) (hg : e.state.cams.find? u.id = some g)
    (hx : u.isCamExtrinsic = true → g.isExtrinsic = true) (hp : u.intr.Pinhole)
    (h : u.observeLoop N e.stateSize (u.camOf e).index F 0 f.track e1 (blankRows f.track.length e.stateSize) = .ok out)
    (hc : ¬ e.ClonesFrame u.id) (ho : e.OneWindow) (hs : (times e.track).Pairwise (· < ·)) (first : AugState ℝ)
    (hf : (e.window e.queryKey).head? = some first) (ht : ∀ p ∈ f.track, first.time ≤ p.time ∧ p.time ≤ e.currentTime)
    (hsee : ∀ p ∈ f.track, ∀ a, e.poseFor N.toPrim u.id p = .ok a → a.ang.normSq = 1 ∧ u.inCamera a F 2 ≠ 0)
    (j : Nat) (p : FeaturePoint ℝ) (hj : f.track[j]? = some p) :
    ∃ a A B, e.poseFor N.toPrim u.id p = .ok a ∧ Encloses e.track p.time A B ∧ A ∈ e.window e.queryKey ∧
      a.alpha = (p.time - A.time) / (B.time - A.time) ∧ a.pos = A.pos + a.alpha • (B.pos - A.pos) ∧
      ((B ∈ e.window e.queryKey ∧
          ObservationRows u g.index a p F (betweenSources A B False a.alpha) (2 * j) out.2.1 out.2.2.1 out.2.2.2) ∨
       (B.pos = e.state.body.pos ∧ B.time = e.currentTime ∧
          ObservationRows u g.index a p F (betweenSources A B True a.alpha) (2 * j) out.2.1 out.2.2.1 out.2.2.2)) := by
  have hinv := hr.inv
  have hcam := camOf_eq hg
  have hfw : first ∈ e.window e.queryKey := List.mem_of_mem_head? hf
  have hfind := find_of_window hfw
  have found : ∀ p ∈ f.track, ∃ a A B, e.poseFor N.toPrim u.id p = .ok a ∧ Encloses e.track p.time A B ∧ A ∈ e.window e.queryKey ∧
      a.alpha = (p.time - A.time) / (B.time - A.time) ∧ a.pos = A.pos + a.alpha • (B.pos - A.pos) ∧ a.index = A.index := by
    intro p hpt
    obtain ⟨a, e', A, B, h1, h2, h3, _, _, h4, _, _, h5, h6, _⟩ :=
      C17_between_partial N.toPrim e u.id p.frameId p.time hc hs first hf (ht p hpt).1 (ht p hpt).2
    exact ⟨a, A, B, getAugState_pose h1, h2, h6, h3, h4, h5⟩
  have hcols : ∀ A ∈ e.window e.queryKey, 18 ≤ A.index ∧ (u.isCamExtrinsic = true → 18 ≤ g.index ∧ g.index + 6 ≤ A.index) :=
    fun A hA => ⟨(aug_columns hinv.tiles hfind hA).1, fun he =>
      ⟨(cam_columns hinv.tiles hg (hx he)).1, cam_aug_columns hinv.tiles hg (hx he) hfind hA⟩⟩
  have hpose : ∀ p ∈ f.track, ∀ a, e.poseFor N.toPrim u.id p = .ok a → (a.alpha = 0 ∨ 18 ≤ a.index) ∧
      (u.isCamExtrinsic = true → 18 ≤ (u.camOf e).index ∧ ((u.camOf e).index + 6 ≤ a.index ∨
        (a.alpha = 0 ∧ a.index + 6 ≤ (u.camOf e).index))) := by
    intro p hpt a ha
    obtain ⟨a', A, B, h1, _, hA, _, _, h5⟩ := found p hpt
    rw [ha] at h1
    cases h1
    rw [hcam, h5]
    exact ⟨.inr (hcols A hA).1, fun he => ⟨((hcols A hA).2 he).1, .inl ((hcols A hA).2 he).2⟩⟩
  obtain ⟨_, _, _, _, _, hrows⟩ := observeLoop_rows N u e.stateSize (u.camOf e).index F f.track 0 e1 _ _ _ out h
    (fun p hpt a ha => hpose p hpt a (by rw [← poseFor_looked N.toPrim hl]; exact ha)) (fun _ _ _ => rfl)
  obtain ⟨a, ha, hrow⟩ := hrows j p hj
  rw [poseFor_looked N.toPrim hl] at ha
  have hpt := List.mem_of_getElem? hj
  obtain ⟨a', A, B, h1, h2, hA, h3, h4, h5⟩ := found p hpt
  rw [ha] at h1
  cases h1
  obtain ⟨hu, hz⟩ := hsee p hpt a ha
  rw [zero_add, hcam] at hrow
  obtain ⟨d, htiles⟩ := only_window_tiles hinv.tiles hinv.sorted.augs hfind ho
  refine ⟨a, A, B, ha, h2, hA, h3, h4, ?_⟩
  obtain ⟨⟨i, hiA, hiB⟩, _, _⟩ := h2
  have hlt : i < (e.window e.queryKey).length := by
    obtain ⟨hi, _⟩ := List.getElem?_eq_some_iff.1 hiB
    simp only [track, List.length_append, List.length_singleton] at hi
    omega
  have hiA' : (e.window e.queryKey)[i]? = some A := by
    rw [← hiA, track, List.getElem?_append_left hlt]
  by_cases hl : i + 1 < (e.window e.queryKey).length
  · have hiB' : (e.window e.queryKey)[i + 1]? = some B := by
      rw [← hiB, track, List.getElem?_append_left hl]
    have hB := List.mem_of_getElem? hiB'
    have hBc := aug_columns hinv.tiles hfind hB
    have hnx := tiles_next htiles hiA' hiB'
    exact .inl ⟨hB, rows_between hrow hp hu hz A B False h4 h5 (hcols A hA).1 (hcols A hA).2 (fun h => h.elim)
      (fun _ => ⟨hnx, by omega⟩)⟩
  · have hlen : i + 1 = (e.window e.queryKey).length := by omega
    have hBb : B = e.poseClone 0 := by
      rw [track, hlen] at hiB
      simp only [List.getElem?_append_right (le_refl _), Nat.sub_self, List.getElem?_cons_zero, Option.some.injEq] at hiB
      exact hiB.symm
    have hlast : (e.window e.queryKey).getLast? = some A := by
      rw [List.getLast?_eq_getElem?, ← hlen, Nat.add_sub_cancel]; exact hiA'
    have hend := tiles_last htiles hlast
    exact .inr ⟨by rw [hBb]; rfl, by rw [hBb]; rfl, rows_between hrow hp hu hz A B True h4 h5 (hcols A hA).1 (hcols A hA).2
      (fun _ => hend) (fun h => absurd trivial h)⟩

end rows

/-! ## Several features -/

section stack
variable {K : Type} [Field K] [LinearOrder K]

theorem observeLoop_looked {N : Num K} {u : MsckfUpdater K} {n cam : Nat} {F : V3 K} (ps : List (FeaturePoint K)) :
    ∀ {i : Nat} {e : Ekf K} {s : Mat K × Mat K × Vec K} {out : Ekf K × Mat K × Mat K × Vec K},
      u.observeLoop N n cam F i ps e s = .ok out → e.Looked out.1 := by
  induction ps with
  | nil => intro i e s out h; cases h; exact .refl _
  | cons p ps ih =>
    intro i e s out h
    unfold MsckfUpdater.observeLoop at h
    obtain ⟨⟨a, e1⟩, h1, h⟩ := bind_ok_iff.1 h
    obtain ⟨s1, _, h⟩ := bind_ok_iff.1 h
    exact (looked_getAugState h1).trans (ih h)

theorem observe_cols {N : Num K} {u : MsckfUpdater K} {n cam i : Nat} {F : V3 K} {a : AugState K} {p : FeaturePoint K}
    {s out : Mat K × Mat K × Vec K} (h : u.observe N n cam i F a p s = .ok out) : out.2.1.cols = s.2.1.cols := by
  unfold MsckfUpdater.observe at h
  obtain ⟨_, _, h⟩ := bind_ok_iff.1 h
  obtain ⟨Hf1, _, h⟩ := bind_ok_iff.1 h
  have hs : ∀ {m t o : Mat K} {i j p q : Nat}, m.setBlock i j p q t = .ok o → o.cols = m.cols := fun hm => by
    obtain ⟨_, _, rfl⟩ := Mat.setBlock_ok_iff.1 hm; rfl
  dsimp only at h
  split at h
  · obtain ⟨H1, g1, h⟩ := bind_ok_iff.1 h
    obtain ⟨H2, g2, h⟩ := bind_ok_iff.1 h
    split at h
    · obtain ⟨H3, g3, h⟩ := bind_ok_iff.1 h
      split at h
      · obtain ⟨_, _, h⟩ := bind_ok_iff.1 h
        obtain ⟨H4, g4, h⟩ := bind_ok_iff.1 h
        obtain ⟨_, _, h⟩ := bind_ok_iff.1 h
        obtain ⟨H5, g5, h⟩ := bind_ok_iff.1 h
        cases h
        exact (hs g5).trans ((hs g4).trans ((hs g3).trans ((hs g2).trans (hs g1))))
      · obtain ⟨H4, g4, h⟩ := bind_ok_iff.1 h
        cases h
        exact (hs g4).trans ((hs g3).trans ((hs g2).trans (hs g1)))
    · obtain ⟨H4, g4, h⟩ := bind_ok_iff.1 h
      cases h
      exact (hs g4).trans ((hs g2).trans (hs g1))
  · obtain ⟨H0, g0, h⟩ := bind_ok_iff.1 h
    cases g0
    split at h
    · obtain ⟨H3, g3, h⟩ := bind_ok_iff.1 h
      split at h
      · obtain ⟨_, _, h⟩ := bind_ok_iff.1 h
        obtain ⟨H4, g4, h⟩ := bind_ok_iff.1 h
        obtain ⟨_, _, h⟩ := bind_ok_iff.1 h
        obtain ⟨H5, g5, h⟩ := bind_ok_iff.1 h
        cases h
        exact (hs g5).trans ((hs g4).trans (hs g3))
      · obtain ⟨H4, g4, h⟩ := bind_ok_iff.1 h
        cases h
        exact (hs g4).trans (hs g3)
    · obtain ⟨H4, g4, h⟩ := bind_ok_iff.1 h
      cases h
      exact hs g4

theorem observeLoop_cols {N : Num K} {u : MsckfUpdater K} {n cam : Nat} {F : V3 K} (ps : List (FeaturePoint K)) :
    ∀ {i : Nat} {e : Ekf K} {s : Mat K × Mat K × Vec K} {out : Ekf K × Mat K × Mat K × Vec K},
      u.observeLoop N n cam F i ps e s = .ok out → out.2.2.1.cols = s.2.1.cols := by
  induction ps with
  | nil => intro i e s out h; cases h; rfl
  | cons p ps ih =>
    intro i e s out h
    unfold MsckfUpdater.observeLoop at h
    obtain ⟨⟨a, e1⟩, h1, h⟩ := bind_ok_iff.1 h
    obtain ⟨s1, h2, h⟩ := bind_ok_iff.1 h
    exact (ih h).trans (observe_cols h2)

theorem featureLoop_stack (N : Num K) (u : MsckfUpdater K) (n cam : Nat) (e0 : Ekf K) (fs : List (FeatureTrack K)) :
    ∀ (e : Ekf K) (ct : Nat) (H : Mat K) (r : Vec K) (out : Ekf K × Nat × Mat K × Vec K), e0.Looked e →
      u.featureLoop N n cam fs e ct H r = .ok out → H.cols = n → (∀ i, ct ≤ i → (∀ c, H.get i c = 0) ∧ r.get i = 0) →
      e0.Looked out.1 ∧ (out.2.2.1.rows = H.rows ∧ out.2.2.1.cols = H.cols ∧ out.2.2.2.size = r.size) ∧
      (∀ i, i < ct → (∀ c, out.2.2.1.get i c = H.get i c) ∧ out.2.2.2.get i = r.get i) ∧
      ∃ parts, List.Forall₂ (FeatureOutcome N u n cam e0) fs parts ∧
        StackedFrom out.2.2.1 out.2.2.2 out.2.1 ct (parts.filterMap id) := by
  induction fs with
  | nil =>
    intro e ct H r out hl h _ hz
    cases h
    exact ⟨hl, ⟨rfl, rfl, rfl⟩, fun _ _ => ⟨fun _ => rfl, rfl⟩, [], .nil, rfl, hz⟩
  | cons f fs ih =>
    intro e ct H r out hl h hcols hz
    unfold MsckfUpdater.featureLoop at h
    obtain ⟨⟨ok, posF, e1⟩, h1, h⟩ := bind_ok_iff.1 h
    have hl1 : e.Looked e1 := by
      obtain ⟨_, _, _, _, _, hl, _⟩ := triangulate_form h1
      exact hl
    dsimp only at h
    cases ok with
    | false =>
      rw [if_pos rfl] at h
      obtain ⟨g1, g2, g3, parts, g4, g5⟩ := ih e1 ct H r out (hl.trans hl1) h hcols hz
      exact ⟨g1, g2, g3, none :: parts, .cons (.rejected e e1 posF hl h1) g4, g5⟩
    | true =>
      rw [if_neg Bool.false_ne_true.symm] at h
      cases posF with
      | none => cases h
      | some F =>
        dsimp only at h
        obtain ⟨⟨e2, Hf, Hc, res⟩, h2, h⟩ := bind_ok_iff.1 h
        obtain ⟨⟨Hp, rp⟩, h3, h⟩ := bind_ok_iff.1 h
        obtain ⟨H1, h4, h⟩ := bind_ok_iff.1 h
        obtain ⟨_, h5, h⟩ := bind_ok_iff.1 h
        dsimp only at h4 h5 h
        have hl2 : e1.Looked e2 := observeLoop_looked _ h2
        have hrow : Hp.rows = rp.size := by
          obtain ⟨_, _, _, q1, _, q2, _⟩ := nullspace_form h3
          exact q1.trans q2.symm
        obtain ⟨⟨hr1, hr2⟩, _, rfl⟩ := Mat.setBlock_ok_iff.1 h4
        have hcp : Hp.cols = H.cols := by
          obtain ⟨_, _, _, _, q2, _⟩ := nullspace_form h3
          have : Hc.cols = n := observeLoop_cols _ h2
          rw [hcols, ← this]; exact q2
        obtain ⟨g1, g2, g3, parts, g4, g5⟩ := ih e2 (ct + Hp.rows) _ _ out ((hl.trans hl1).trans hl2) h hcols (fun i hi => by
          refine ⟨fun c => ?_, ?_⟩
          · dsimp only; rw [if_neg (by omega)]; exact (hz i (by omega)).1 c
          · dsimp only; rw [if_neg (by omega)]; exact (hz i (by omega)).2)
        refine ⟨g1, g2, fun i hi => ⟨fun c => ?_, ?_⟩, some (Hp, rp) :: parts,
          .cons (.used e e1 e2 F Hf Hc res (Hp, rp) hl (hl.trans hl1) h1 h2 h3) g4, ⟨hrow, ?_, fun i hi => ⟨fun c hc => ?_, ?_⟩⟩, g5⟩
        · rw [(g3 i (by omega)).1 c]; dsimp only; rw [if_neg (by omega)]
        · rw [(g3 i (by omega)).2]; dsimp only; rw [if_neg (by omega)]
        · exact hcp.trans g2.2.1.symm
        · dsimp only at hi hc
          rw [(g3 (ct + i) (by omega)).1 c]
          dsimp only
          rw [if_pos (by omega), Nat.sub_zero, Nat.add_sub_cancel_left]
        · dsimp only at hi
          rw [(g3 (ct + i) (by omega)).2]
          dsimp only
          rw [if_pos (by omega), Nat.add_sub_cancel_left]

/-- **Every accepted feature, and no other, contributes its rows, each to rows of its own**: the measurement of a message is
the rows of its accepted features, one feature after the other in the order of the message. -/
theorem C59_stack (N : Num K) (u : MsckfUpdater K) (e : Ekf K) (fs : List (FeatureTrack K)) (out : Ekf K × Nat × Mat K × Vec K)
    (h : u.featureLoop N e.stateSize (u.camOf e).index fs e 0
      (Mat.zero ((fs.map fun f => 2 * f.track.length).sum) e.stateSize)
      ⟨(fs.map fun f => 2 * f.track.length).sum, fun _ => 0⟩ = .ok out) :
    ∃ parts, List.Forall₂ (FeatureOutcome N u e.stateSize (u.camOf e).index e) fs parts ∧
      StackedFrom out.2.2.1 out.2.2.2 out.2.1 0 (parts.filterMap id) := by
  obtain ⟨_, _, _, h⟩ := featureLoop_stack N u _ _ e fs e 0 _ _ out (.refl _) h rfl (fun _ _ => ⟨fun _ => rfl, rfl⟩)
  exact h

end stack

/-! ## The rows are defined, and concrete cases -/

section defined
variable {K : Type} [Field K] [LinearOrder K]

theorem setBlock_sized {m t : Mat K} {i j p q : Nat} (h1 : i + p ≤ m.rows ∧ j + q ≤ m.cols) (h2 : t.rows = p ∧ t.cols = q) :
    ∃ o, m.setBlock i j p q t = .ok o ∧ o.rows = m.rows ∧ o.cols = m.cols :=
  ⟨_, Mat.setBlock_ok_iff.2 ⟨h1, h2, rfl⟩, rfl, rfl⟩

theorem observe_defined (N : Num K) (u : MsckfUpdater K) (n cam i : Nat) (F : V3 K) (a : AugState K) (p : FeaturePoint K)
    (Hf Hc : Mat K) (res : Vec K) (h1 : 2 * i + 2 ≤ res.size) (h2 : 2 * i + 2 ≤ Hf.rows ∧ 3 ≤ Hf.cols)
    (h3 : 2 * i + 2 ≤ Hc.rows ∧ Hc.cols = n) (h4 : u.isCamExtrinsic = true → cam + 6 ≤ n) (h5 : a.index + 6 ≤ n) (h6 : 18 ≤ n) :
    ∃ Hf' Hc' res', u.observe N n cam i F a p (Hf, Hc, res) = .ok (Hf', Hc', res') ∧ (Hf'.rows = Hf.rows ∧ Hf'.cols = Hf.cols) ∧
      (Hc'.rows = Hc.rows ∧ Hc'.cols = Hc.cols) ∧ res'.size = res.size := by
  unfold MsckfUpdater.observe
  dsimp only
  rw [guardUB_true h1, ok_bind]
  have h0 : 0 + 3 ≤ Hf.cols := by omega
  obtain ⟨Hf1, g1, f1⟩ := setBlock_sized (m := Hf) (i := 2 * i) (j := 0) (p := 2) (q := 3)
    (t := MsckfUpdater.toMat23 (distortionJacobian (normalisePixel u.intr p.x p.y) u.intr *
      projectionJacobian (u.angC.toMat.transpose.mulVec (a.ang.toMat.transpose.mulVec (F - a.pos) - u.posC)) *
      (u.angC.toMat.transpose * a.ang.toMat.transpose))) ⟨h2.1, h0⟩ ⟨rfl, rfl⟩
  rw [g1, ok_bind]
  have pose : ∀ (Hc1 : Mat K) (s t : Matrix (Fin 2) (Fin 3) K) (r : Vec K), Hc1.rows = Hc.rows → Hc1.cols = Hc.cols →
      ∃ Hf' Hc' res', (if a.alpha ≠ 0 then do
        let Hc ← Hc1.setBlock (2 * i) a.index 2 augSize ((MsckfUpdater.cat23 s t).smul (1 - a.alpha))
        if a.index + 2 * augSize > n then do
          let b ← ((MsckfUpdater.cat23 s t).smul a.alpha).block 0 0 2 3
          let Hc ← Hc.setBlock (2 * i) 0 2 3 b
          let b ← ((MsckfUpdater.cat23 s t).smul a.alpha).block 0 3 2 3
          let Hc ← Hc.setBlock (2 * i) 9 2 3 b
          pure (Hf1, Hc, r)
        else do
          let Hc ← Hc.setBlock (2 * i) (a.index + augSize) 2 augSize ((MsckfUpdater.cat23 s t).smul a.alpha)
          pure (Hf1, Hc, r)
      else do
        let Hc ← Hc1.setBlock (2 * i) a.index 2 augSize (MsckfUpdater.cat23 s t)
        pure (Hf1, Hc, r) : Res (Mat K × Mat K × Vec K)) = .ok (Hf', Hc', res') ∧ Hf' = Hf1 ∧
        (Hc'.rows = Hc.rows ∧ Hc'.cols = Hc.cols) ∧ res' = r := by
    intro Hc1 s t r hr hcl
    by_cases hα : a.alpha ≠ 0
    · rw [if_pos hα]
      obtain ⟨H1, k1, m1⟩ := setBlock_sized (m := Hc1) (i := 2 * i) (j := a.index) (p := 2) (q := augSize)
        (t := (MsckfUpdater.cat23 s t).smul (1 - a.alpha)) ⟨by omega, by simp only [augSize]; omega⟩ ⟨rfl, rfl⟩
      rw [k1, ok_bind]
      by_cases hl : a.index + 2 * augSize > n
      · rw [if_pos hl]
        obtain ⟨b1, c1, d1⟩ : ∃ b, ((MsckfUpdater.cat23 s t).smul a.alpha).block 0 0 2 3 = .ok b ∧ b.rows = 2 ∧ b.cols = 3 :=
          ⟨_, rfl, rfl, rfl⟩
        obtain ⟨b2, c2, d2⟩ : ∃ b, ((MsckfUpdater.cat23 s t).smul a.alpha).block 0 3 2 3 = .ok b ∧ b.rows = 2 ∧ b.cols = 3 :=
          ⟨_, rfl, rfl, rfl⟩
        rw [c1, ok_bind]
        obtain ⟨H2, k2, m2⟩ := setBlock_sized (m := H1) (i := 2 * i) (j := 0) (p := 2) (q := 3) (t := b1)
          ⟨by omega, by omega⟩ d1
        rw [k2, ok_bind, c2, ok_bind]
        obtain ⟨H3, k3, m3⟩ := setBlock_sized (m := H2) (i := 2 * i) (j := 9) (p := 2) (q := 3) (t := b2)
          ⟨by omega, by omega⟩ d2
        rw [k3, ok_bind]
        exact ⟨_, _, _, rfl, rfl, ⟨by omega, by omega⟩, rfl⟩
      · rw [if_neg hl]
        simp only [augSize] at hl
        obtain ⟨H2, k2, m2⟩ := setBlock_sized (m := H1) (i := 2 * i) (j := a.index + augSize) (p := 2) (q := augSize)
          (t := (MsckfUpdater.cat23 s t).smul a.alpha) ⟨by omega, by simp only [augSize]; omega⟩ ⟨rfl, rfl⟩
        rw [k2, ok_bind]
        exact ⟨_, _, _, rfl, rfl, ⟨by omega, by omega⟩, rfl⟩
    · rw [if_neg hα]
      obtain ⟨H2, k2, m2⟩ := setBlock_sized (m := Hc1) (i := 2 * i) (j := a.index) (p := 2) (q := augSize)
        (t := MsckfUpdater.cat23 s t) ⟨by omega, by simp only [augSize]; omega⟩ ⟨rfl, rfl⟩
      rw [k2, ok_bind]
      exact ⟨_, _, _, rfl, rfl, ⟨by omega, by omega⟩, rfl⟩
  by_cases he : u.isCamExtrinsic = true
  · rw [if_pos he]
    have hc6 := h4 he
    obtain ⟨H1, k1, m1⟩ := setBlock_sized (m := Hc) (i := 2 * i) (j := cam + 0) (p := 2) (q := 3)
      (t := MsckfUpdater.toMat23 (-distortionJacobian (normalisePixel u.intr p.x p.y) u.intr *
        projectionJacobian (u.angC.toMat.transpose.mulVec (a.ang.toMat.transpose.mulVec (F - a.pos) - u.posC)) *
        u.angC.toMat.transpose)) ⟨by omega, by omega⟩ ⟨rfl, rfl⟩
    rw [k1, ok_bind]
    obtain ⟨H2, k2, m2⟩ := setBlock_sized (m := H1) (i := 2 * i) (j := cam + 3) (p := 2) (q := 3)
      (t := MsckfUpdater.toMat23 (distortionJacobian (normalisePixel u.intr p.x p.y) u.intr *
        projectionJacobian (u.angC.toMat.transpose.mulVec (a.ang.toMat.transpose.mulVec (F - a.pos) - u.posC)) *
        u.angC.toMat.transpose * skew (a.ang.toMat.transpose.mulVec (F - a.pos) - u.posC) * (N.quatJac u.angC).transpose))
      ⟨by omega, by omega⟩ ⟨rfl, rfl⟩
    rw [k2, ok_bind]
    obtain ⟨x, y, z, q1, rfl, q3, rfl⟩ := pose H2 _ _ _ (by omega) (by omega)
    exact ⟨_, _, _, q1, f1, q3, rfl⟩
  · rw [if_neg he, pure_res, ok_bind]
    obtain ⟨x, y, z, q1, rfl, q3, rfl⟩ := pose Hc _ _ _ rfl rfl
    exact ⟨_, _, _, q1, f1, q3, rfl⟩

/-- The rows of a feature are defined when the pose of every observation is, and its columns exist. -/
theorem observeLoop_sized (N : Num K) (u : MsckfUpdater K) (n cam : Nat) (F : V3 K) (h6 : 18 ≤ n)
    (h4 : u.isCamExtrinsic = true → cam + 6 ≤ n) (ps : List (FeaturePoint K)) :
    ∀ (i : Nat) (e : Ekf K) (Hf Hc : Mat K) (res : Vec K),
      (∀ p ∈ ps, ∃ a, e.poseFor N.toPrim u.id p = .ok a ∧ a.index + 6 ≤ n) → 2 * (i + ps.length) ≤ res.size →
      2 * (i + ps.length) ≤ Hf.rows ∧ 3 ≤ Hf.cols → 2 * (i + ps.length) ≤ Hc.rows ∧ Hc.cols = n →
      ∃ out, u.observeLoop N n cam F i ps e (Hf, Hc, res) = .ok out ∧ (out.2.1.rows = Hf.rows ∧ out.2.1.cols = Hf.cols) ∧
        (out.2.2.1.rows = Hc.rows ∧ out.2.2.1.cols = Hc.cols) ∧ out.2.2.2.size = res.size := by
  induction ps with
  | nil => intro i e Hf Hc res _ _ _ _; exact ⟨_, rfl, ⟨rfl, rfl⟩, ⟨rfl, rfl⟩, rfl⟩
  | cons p ps ih =>
    intro i e Hf Hc res hp h1 h2 h3
    simp only [List.length_cons] at h1 h2 h3
    obtain ⟨a, ha, hi⟩ := hp p (List.mem_cons_self ..)
    unfold Ekf.poseFor at ha
    cases hg : e.getAugState N.toPrim u.id p.frameId p.time with
    | error x => rw [hg] at ha; cases ha
    | ok r =>
      obtain ⟨a', e1⟩ := r
      rw [hg] at ha
      have haa : a' = a := Except.ok.inj ha
      subst haa
      obtain ⟨Hf', Hc', res', q1, q2, q3, q4⟩ := observe_defined N u n cam i F a' p Hf Hc res (by omega) ⟨by omega, h2.2⟩
        ⟨by omega, h3.2⟩ h4 hi h6
      have hl := looked_getAugState hg
      obtain ⟨out, ho, r1, r2, r3⟩ := ih (i + 1) e1 Hf' Hc' res' (fun q hq => by
        obtain ⟨b, hb, hbi⟩ := hp q (List.mem_cons_of_mem _ hq)
        exact ⟨b, by rw [poseFor_looked N.toPrim hl]; exact hb, hbi⟩) (by omega) ⟨by omega, by omega⟩ ⟨by omega, by omega⟩
      refine ⟨out, ?_, ⟨r1.1.trans q2.1, r1.2.trans q2.2⟩, ⟨r2.1.trans q3.1, r2.2.trans q3.2⟩, r3.trans q4⟩
      unfold MsckfUpdater.observeLoop
      rw [hg, ok_bind]
      dsimp only
      rw [q1, ok_bind]
      exact ho

theorem observeLoop_defined (N : Num K) (u : MsckfUpdater K) (n cam : Nat) (F : V3 K) (h6 : 18 ≤ n)
    (h4 : u.isCamExtrinsic = true → cam + 6 ≤ n) (ps : List (FeaturePoint K)) :
    ∀ (i : Nat) (e : Ekf K) (Hf Hc : Mat K) (res : Vec K),
      (∀ p ∈ ps, ∃ a, e.poseFor N.toPrim u.id p = .ok a ∧ a.index + 6 ≤ n) → 2 * (i + ps.length) ≤ res.size →
      2 * (i + ps.length) ≤ Hf.rows ∧ 3 ≤ Hf.cols → 2 * (i + ps.length) ≤ Hc.rows ∧ Hc.cols = n →
      ∃ out, u.observeLoop N n cam F i ps e (Hf, Hc, res) = .ok out := by
  intro i e Hf Hc res h1 h2 h3 h5
  obtain ⟨out, h, _⟩ := observeLoop_sized N u n cam F h6 h4 ps i e Hf Hc res h1 h2 h3 h5
  exact ⟨out, h⟩

theorem getAug_of_pose {N : Prim K} {e : Ekf K} {cam : Nat} {p : FeaturePoint K} {a : AugState K} (h : e.poseFor N cam p = .ok a) :
    ∃ e', e.getAugState N cam p.frameId p.time = .ok (a, e') ∧ e.Looked e' := by
  unfold Ekf.poseFor at h
  cases hg : e.getAugState N cam p.frameId p.time with
  | error x => rw [hg] at h; cases h
  | ok r =>
    obtain ⟨a', e1⟩ := r
    rw [hg] at h
    have haa : a' = a := Except.ok.inj h
    subst haa
    exact ⟨e1, rfl, looked_getAugState hg⟩

theorem triangulateLoop_defined (N : Num K) (u : MsckfUpdater K) (a0 : AugState K) (ps : List (FeaturePoint K)) :
    ∀ (e : Ekf K) (A : M3 K) (b : V3 K), (∀ p ∈ ps, ∃ a, e.poseFor N.toPrim u.id p = .ok a) →
      ∃ A' b' e', u.triangulateLoop N a0 ps e A b = .ok (A', b', e') := by
  induction ps with
  | nil => intro e A b _; exact ⟨_, _, _, rfl⟩
  | cons p ps ih =>
    intro e A b h
    obtain ⟨a, ha⟩ := h p (List.mem_cons_self ..)
    obtain ⟨e1, h1, hl⟩ := getAug_of_pose ha
    unfold MsckfUpdater.triangulateLoop
    rw [h1, ok_bind]
    exact ih e1 _ _ fun q hq => by
      obtain ⟨c, hc⟩ := h q (List.mem_cons_of_mem _ hq)
      exact ⟨c, by rw [poseFor_looked N.toPrim hl]; exact hc⟩

theorem triangulate_truth (N : Num K) (u : MsckfUpdater K) (e : Ekf K) (f : FeatureTrack K) (hu : u.useTruth = true)
    (hne : f.track ≠ []) (h : ∀ p ∈ f.track, ∃ a, e.poseFor N.toPrim u.id p = .ok a) :
    ∃ e', u.triangulate N e f = .ok (true, f.truth, e') ∧ e.Looked e' := by
  have key : ∃ r, u.triangulate N e f = .ok r := by
    unfold MsckfUpdater.triangulate
    cases ht : f.track with
    | nil => exact absurd ht hne
    | cons p0 ps =>
      rw [ht] at h
      obtain ⟨a0, ha0⟩ := h p0 (List.mem_cons_self ..)
      obtain ⟨e1, h1, hl⟩ := getAug_of_pose ha0
      dsimp only
      rw [h1, ok_bind]
      dsimp only
      obtain ⟨A, b, e2, h2⟩ := triangulateLoop_defined N u a0 (p0 :: ps) e1 0 0 fun q hq => by
        obtain ⟨c, hc⟩ := h q hq
        exact ⟨c, by rw [poseFor_looked N.toPrim hl]; exact hc⟩
      rw [h2, ok_bind]
      dsimp only
      rw [hu]
      split <;> exact ⟨_, rfl⟩
  obtain ⟨⟨b, q, e'⟩, hr⟩ := key
  obtain ⟨_, _, _, _, _, hl, _, _, _, z, _, ht, _⟩ := triangulate_form hr
  obtain ⟨h1, h2⟩ := ht hu
  dsimp only at h1 h2 hl
  rw [h1, h2] at hr
  exact ⟨e', hr, hl⟩

/-- A message of simulated tracks with at least two observations each, all of frames the filter has a pose for, is processed
up to the correction without undefined behaviour. -/
theorem C59_defined (N : Num K) (u : MsckfUpdater K) (n cam : Nat) (h6 : 18 ≤ n) (h4 : u.isCamExtrinsic = true → cam + 6 ≤ n)
    (hu : u.useTruth = true) (fs : List (FeatureTrack K)) :
    ∀ (e : Ekf K) (ct : Nat) (H : Mat K) (r : Vec K),
      (∀ f ∈ fs, 2 ≤ f.track.length ∧ (∃ F, f.truth = some F) ∧
        ∀ p ∈ f.track, ∃ a, e.poseFor N.toPrim u.id p = .ok a ∧ a.index + 6 ≤ n) →
      ct + (fs.map fun f => 2 * f.track.length).sum ≤ H.rows → H.cols = n → H.rows ≤ r.size →
      ∃ out, u.featureLoop N n cam fs e ct H r = .ok out := by
  induction fs with
  | nil => intro e ct H r _ _ _ _; exact ⟨_, rfl⟩
  | cons f fs ih =>
    intro e ct H r h hr hcols hsz
    simp only [List.map_cons, List.sum_cons] at hr
    obtain ⟨hlen, ⟨F, hF⟩, hp⟩ := h f (List.mem_cons_self ..)
    obtain ⟨e1, h1, hl1⟩ := triangulate_truth N u e f hu (by intro h0; rw [h0] at hlen; simp at hlen)
      (fun p hpt => by obtain ⟨a, ha, _⟩ := hp p hpt; exact ⟨a, ha⟩)
    obtain ⟨⟨e2, Hf, Hc, res⟩, h2, s1, s2, s3⟩ := observeLoop_sized N u n cam F h6 h4 f.track 0 e1 (Mat.zero (2 * f.track.length) 3)
      (Mat.zero (2 * f.track.length) n) ⟨2 * f.track.length, fun _ => 0⟩
      (fun p hpt => by obtain ⟨a, ha, hi⟩ := hp p hpt; exact ⟨a, by rw [poseFor_looked N.toPrim hl1]; exact ha, hi⟩)
      (by show _ ≤ 2 * f.track.length; omega) ⟨by show _ ≤ 2 * f.track.length; omega, le_refl 3⟩
      ⟨by show _ ≤ 2 * f.track.length; omega, rfl⟩
    dsimp only [Mat.zero] at s1 s2 s3
    obtain ⟨⟨Hp, rp⟩, h3⟩ := C36_defined N Hf Hc res (by omega) (by omega) (by omega)
    obtain ⟨_, _, _, q1, q2, q3, _⟩ := nullspace_form h3
    dsimp only at q1 q2 q3
    have hl2 := observeLoop_looked _ h2
    obtain ⟨H1, k1, m1⟩ := setBlock_sized (m := H) (i := ct) (j := 0) (p := Hp.rows) (q := Hp.cols) (t := Hp)
      ⟨by omega, by omega⟩ ⟨rfl, rfl⟩
    obtain ⟨out, ho⟩ := ih e2 (ct + Hp.rows) H1 ⟨r.size, fun k => if ct ≤ k ∧ k < ct + rp.size then rp.get (k - ct) else r.get k⟩
      (fun g hg => by
        obtain ⟨z1, z2, z3⟩ := h g (List.mem_cons_of_mem _ hg)
        refine ⟨z1, z2, fun p hpt => ?_⟩
        obtain ⟨a, ha, hi⟩ := z3 p hpt
        exact ⟨a, by rw [poseFor_looked N.toPrim (hl1.trans hl2)]; exact ha, hi⟩) (by omega) (by omega) (by show _ ≤ r.size; omega)
    refine ⟨out, ?_⟩
    unfold MsckfUpdater.featureLoop
    rw [h1, ok_bind]
    dsimp only
    rw [if_neg Bool.false_ne_true.symm, hF]
    dsimp only
    rw [h2, ok_bind]
    dsimp only
    rw [h3, ok_bind]
    dsimp only
    rw [k1, ok_bind, guardUB_true (by omega), ok_bind]
    exact ho

end defined

namespace CamRowsSample

/-- The body at a place, not turned. -/
noncomputable def bodyAt (x : ℝ) : BodyState ℝ := { (BodyState.default : BodyState ℝ) with pos := ![x, 0, 0] }

noncomputable def camera : CamState ℝ := (CamState.default : CamState ℝ).setIsExtrinsic true

def params (t : AugType) : EkfParams ℝ := { C42_params with augType := t }

/-- Two frames of camera 1, the body moving in between. -/
noncomputable def ops : List (Ekf.Op ℝ) :=
  [.registerCamera 1 camera (Mat.zero 6 6), .initializeAt 0 (bodyAt 0), .frame 1 5, .initializeAt 1 (bodyAt 1), .frame 1 6]

theorem ops_wf : ∀ op ∈ ops, op.WF := by
  intro op ho
  simp only [ops, List.mem_cons, List.not_mem_nil, or_false] at ho
  rcases ho with rfl | rfl | rfl | rfl | rfl <;> first | rfl | trivial

theorem filter : ∃ e, Ekf.run realPrim (Ekf.init realPrim (params .all)) ops = .ok e ∧ e.augType = .all ∧ e.stateSize = 36 ∧
    (∃ s, e.state.cams.find? 1 = some s ∧ s.isExtrinsic = true ∧ s.index = 18) ∧
    (e.window 1).map (fun a => (a.frameId, a.pos, a.ang)) = [(5, ![0, 0, 0], Quat.one), (6, ![1, 0, 0], Quat.one)] := by
  obtain ⟨e, h1, h2, h3, h4, h5⟩ : ∃ e, Ekf.run realPrim (Ekf.init realPrim (params .all)) ops = .ok e ∧ e.augType = .all ∧
      e.stateSize = 36 ∧ (e.state.cams.find? 1).map (fun s => (s.isExtrinsic, s.index)) = some (true, 18) ∧
      (e.window 1).map (fun a => (a.frameId, a.pos, a.ang)) = [(5, ![0, 0, 0], Quat.one), (6, ![1, 0, 0], Quat.one)] := by
    have hrun : Ekf.run realPrim (Ekf.init realPrim (params .all)) ops = (do
        let e ← (Ekf.init realPrim (params .all)).registerCamera realPrim 1 camera (Mat.zero 6 6)
        Ekf.run realPrim e (ops.drop 1)) := rfl
    rw [hrun]
    simp only [fun e => registerCamera_rate e 1 camera (Mat.zero 6 6) one_ne_zero]
    exact ⟨_, rfl, rfl, rfl, rfl, rfl⟩
  obtain ⟨s, f, g⟩ := some_of_map h4
  simp only [Prod.mk.injEq] at g
  exact ⟨e, h1, h2, h3, ⟨s, f, g⟩, h5⟩

/-- Two frames of camera 2, the body moving in between and afterwards; camera 1 is not cloned. -/
noncomputable def opsPrimary : List (Ekf.Op ℝ) :=
  [.registerCamera 2 camera (Mat.zero 6 6), .registerCamera 1 camera (Mat.zero 6 6), .initializeAt 0 (bodyAt 0), .frame 2 5,
   .initializeAt 1 (bodyAt 1), .frame 2 6, .initializeAt 2 (bodyAt 3)]

theorem opsPrimary_wf : ∀ op ∈ opsPrimary, op.WF := by
  intro op ho
  simp only [opsPrimary, List.mem_cons, List.not_mem_nil, or_false] at ho
  rcases ho with rfl | rfl | rfl | rfl | rfl | rfl | rfl <;> first | rfl | trivial

theorem opsPrimary_numbered : ∀ op ∈ opsPrimary, op.NumberedCamera := by
  intro op ho
  simp only [opsPrimary, List.mem_cons, List.not_mem_nil, or_false] at ho
  rcases ho with rfl | rfl | rfl | rfl | rfl | rfl | rfl <;> simp [Ekf.Op.NumberedCamera]

theorem filterPrimary : ∃ e, Ekf.run realPrim (Ekf.init realPrim (params .primary)) opsPrimary = .ok e ∧ e.augType = .primary ∧
    e.primaryCameraId = 2 ∧ e.stateSize = 42 ∧ e.currentTime = 2 ∧ e.state.body.pos = ![3, 0, 0] ∧ e.state.body.ang = Quat.one ∧
    (∃ s, e.state.cams.find? 1 = some s ∧ s.isExtrinsic = true) ∧
    (e.window 2).map (fun a => (a.time, a.pos, a.ang)) = [(0, ![0, 0, 0], Quat.one), (1, ![1, 0, 0], Quat.one)] := by
  obtain ⟨e, h1, h2, h3, h4, h5, h6, h7, h8, h9⟩ : ∃ e, Ekf.run realPrim (Ekf.init realPrim (params .primary)) opsPrimary = .ok e ∧
      e.augType = .primary ∧ e.primaryCameraId = 2 ∧ e.stateSize = 42 ∧ e.currentTime = 2 ∧ e.state.body.pos = ![3, 0, 0] ∧
      e.state.body.ang = Quat.one ∧ (e.state.cams.find? 1).map (fun s => s.isExtrinsic) = some true ∧
      (e.window 2).map (fun a => (a.time, a.pos, a.ang)) = [(0, ![0, 0, 0], Quat.one), (1, ![1, 0, 0], Quat.one)] := by
    have hrun : Ekf.run realPrim (Ekf.init realPrim (params .primary)) opsPrimary = (do
        let e ← (Ekf.init realPrim (params .primary)).registerCamera realPrim 2 camera (Mat.zero 6 6)
        let e ← e.registerCamera realPrim 1 camera (Mat.zero 6 6)
        Ekf.run realPrim e (opsPrimary.drop 2)) := rfl
    rw [hrun]
    simp only [fun e => registerCamera_rate e 1 camera (Mat.zero 6 6) one_ne_zero,
      fun e => registerCamera_rate e 2 camera (Mat.zero 6 6) one_ne_zero]
    exact ⟨_, rfl, rfl, rfl, rfl, rfl, rfl, rfl, rfl, rfl⟩
  obtain ⟨s, f, g⟩ := some_of_map h8
  exact ⟨e, h1, h2, h3, h4, h5, h6, h7, ⟨s, f, g⟩, h9⟩

/-- Camera 1, being calibrated, with the given radial distortion. -/
noncomputable def updater (k : ℝ) : MsckfUpdater ℝ :=
  { MsckfUpdater.new 1 true 1 with intr := ⟨1, 1, k, 0, 0, 0, 640, 480, 1⟩ }

theorem inCamera (k x y z : ℝ) (a : AugState ℝ) (ha : a.ang = Quat.one) :
    (updater k).inCamera a ![x, y, z] = ![x, y, z] - a.pos := by
  have h1 : (Quat.one : Quat ℝ).toMat = 1 := by
    funext i j; fin_cases i <;> fin_cases j <;> simp [Quat.toMat, Quat.one]
  have hC : (updater k).angC = Quat.one := rfl
  have hP : (updater k).posC = 0 := rfl
  rw [MsckfUpdater.inCamera, MsckfUpdater.centre, hC, hP, ha, h1]
  simp only [Matrix.transpose_one, Matrix.one_mulVec, zero_add]

theorem one_unit : (Quat.one : Quat ℝ).normSq = 1 := by simp [Quat.one, Quat.normSq]

theorem map_two {α β : Type} {f : α → β} {l : List α} {x y : β} (h : l.map f = [x, y]) : ∃ a b, l = [a, b] ∧ f a = x ∧ f b = y := by
  obtain ⟨a, l1, rfl, h1, h2⟩ := List.map_eq_cons_iff.1 h
  obtain ⟨b, l2, rfl, h3, h4⟩ := List.map_eq_cons_iff.1 h2
  rw [List.map_eq_nil_iff.1 h4]
  exact ⟨a, b, rfl, h1, h3⟩

theorem window_of_map {e : Ekf ℝ} (hw : (e.window 1).map (fun a => (a.frameId, a.pos, a.ang)) =
      [(5, ![0, 0, 0], Quat.one), (6, ![1, 0, 0], Quat.one)]) :
    ∃ a b, e.window 1 = [a, b] ∧ (a.frameId = 5 ∧ a.pos = ![0, 0, 0] ∧ a.ang = Quat.one) ∧
      (b.frameId = 6 ∧ b.pos = ![1, 0, 0] ∧ b.ang = Quat.one) := by
  obtain ⟨a, b, h, h1, h2⟩ := map_two hw
  simp only [Prod.mk.injEq] at h1 h2
  exact ⟨a, b, h, h1, h2⟩

/-- Everything the sample filter reports for camera 1: the two clones, and the default pose for unknown frames. -/
theorem poses {e : Ekf ℝ} (ht : e.augType = .all) {a b : AugState ℝ} (hw : e.window 1 = [a, b]) (ha : a.frameId = 5)
    (hb : b.frameId = 6) (p : FeaturePoint ℝ) :
    e.poseFor realNum.toPrim 1 p = .ok (if p.frameId = 6 then b else if p.frameId = 5 then a else AugState.default) := by
  have hc : e.ClonesFrame 1 := .inl ht
  by_cases h6 : p.frameId = 6
  · obtain ⟨e', h1, _⟩ := C16_found realNum.toPrim e 1 p.frameId p.time hc [a] [] b hw (hb.trans h6.symm) (by simp)
    rw [if_pos h6]; exact getAugState_pose h1
  · rw [if_neg h6]
    by_cases h5 : p.frameId = 5
    · obtain ⟨e', h1, _⟩ := C16_found realNum.toPrim e 1 p.frameId p.time hc [] [b] a hw (ha.trans h5.symm)
        (by intro c hc; rw [List.mem_singleton] at hc; subst hc; rw [hb]; exact fun h => h6 h.symm)
      rw [if_pos h5]; exact getAugState_pose h1
    · obtain ⟨x, e', h1, _, h3⟩ := C16_unknown_violated realNum.toPrim e 1 p.frameId p.time hc (by
        rw [hw]
        intro c hc
        rcases List.mem_cons.1 hc with rfl | hc
        · rw [ha]; exact fun h => h5 h.symm
        · rw [List.mem_singleton] at hc; subst hc; rw [hb]; exact fun h => h6 h.symm)
      rw [if_neg h5, ← h3]; exact getAugState_pose h1

end CamRowsSample
open CamRowsSample

/-- The hypotheses of `C59_frame_partial`, `C59_absent_violated` and `C59_distortion_violated` are met by a filter with two
frames of a camera being calibrated: for a feature in both frames, for one with an observation in an unknown frame, and for
a lens with radial distortion. -/
example : ∃ (e : Ekf ℝ) (g : CamState ℝ), e.Reachable realNum.toPrim ∧ e.state.cams.find? 1 = some g ∧ g.isExtrinsic = true ∧
    e.ClonesFrame 1 ∧ (updater 0).intr.Pinhole ∧ (updater 1).intr.Usable ∧ (updater 0).angC.normSq = 1 ∧
    (∀ (k : ℝ) (f : FeatureTrack ℝ), ∃ out, (updater k).observeLoop realNum e.stateSize ((updater k).camOf e).index ![2, 0, 5] 0
      f.track e (blankRows f.track.length e.stateSize) = .ok out) ∧
    (∀ p a, e.poseFor realNum.toPrim 1 p = .ok a → a.ang.normSq = 1 ∧ ∀ k, (updater k).inCamera a ![2, 0, 5] 2 ≠ 0) ∧
    (∀ p : FeaturePoint ℝ, p.frameId = 5 ∨ p.frameId = 6 → ∃ a ∈ e.window 1, a.frameId = p.frameId) ∧
    (∀ p : FeaturePoint ℝ, p.frameId = 9 → ∀ a ∈ e.window 1, a.frameId ≠ p.frameId) ∧
    (∃ (p : FeaturePoint ℝ) (a : AugState ℝ), p.frameId = 6 ∧ e.poseFor realNum.toPrim 1 p = .ok a ∧
      (updater 1).predicted a ![2, 0, 5] ≠ 0 ∧ (p.x, p.y) = cvProject (updater 1).intr ((updater 1).inCamera a ![2, 0, 5])) := by
  obtain ⟨e, he, ht, hn, ⟨g, hg, hx, hi⟩, hw⟩ := CamRowsSample.filter
  obtain ⟨a, b, hw, ⟨a1, a2, a3⟩, ⟨b1, b2, b3⟩⟩ := window_of_map hw
  have hp := poses ht hw a1 b1
  have hr : e.Reachable realNum.toPrim := ⟨params .all, ops, ops_wf, he⟩
  have hT := hr.inv.tiles
  have hfind : e.state.augs.find? 1 = some (e.window 1) := find_of_window (a := a) (by rw [hw]; simp)
  have hsee : ∀ p a', e.poseFor realNum.toPrim 1 p = .ok a' → a'.ang = Quat.one ∧ a'.pos 2 = 0 ∧ a'.index + 6 ≤ 36 := by
    intro p a' ha'
    rw [hp p] at ha'
    rw [← Except.ok.inj ha']
    split
    · exact ⟨b3, by rw [b2]; rfl, by rw [← hn]; exact (aug_columns hT hfind (by rw [hw]; simp)).2⟩
    · split
      · exact ⟨a3, by rw [a2]; rfl, by rw [← hn]; exact (aug_columns hT hfind (by rw [hw]; simp)).2⟩
      · exact ⟨rfl, rfl, by show 0 + 6 ≤ 36; omega⟩
  have hcam : ∀ k, (updater k).camOf e = g := fun k => camOf_eq hg
  refine ⟨e, g, hr, hg, hx, .inl ht, ⟨⟨by simp [updater], by simp [updater], by simp [updater]⟩, rfl, rfl, rfl, rfl⟩,
    ⟨by simp [updater], by simp [updater], by simp [updater]⟩, one_unit, ?_, ?_, ?_, ?_, ?_⟩
  · intro k f
    refine observeLoop_defined realNum (updater k) e.stateSize _ _ (by omega) (fun _ => ?_) f.track 0 e _ _ _ ?_ ?_ ?_ ?_
    · rw [hcam, hi, hn]; omega
    · intro p hpt
      exact ⟨_, hp p, by rw [hn]; exact (hsee p _ (hp p)).2.2⟩
    · show _ ≤ 2 * f.track.length; omega
    · exact ⟨by show _ ≤ 2 * f.track.length; omega, le_refl 3⟩
    · exact ⟨by show _ ≤ 2 * f.track.length; omega, rfl⟩
  · intro p a' ha'
    obtain ⟨q1, q2, _⟩ := hsee p a' ha'
    refine ⟨by rw [q1]; exact one_unit, fun k => ?_⟩
    rw [CamRowsSample.inCamera k _ _ _ a' q1]
    simp [q2]
  · rintro p (h | h)
    · exact ⟨a, by rw [hw]; simp, a1.trans h.symm⟩
    · exact ⟨b, by rw [hw]; simp, b1.trans h.symm⟩
  · intro p h c hc
    rw [hw] at hc
    rcases List.mem_cons.1 hc with rfl | hc
    · rw [a1, h]; decide
    · rw [List.mem_singleton] at hc; subst hc; rw [b1, h]; decide
  · refine ⟨⟨6, 0, (cvProject (updater 1).intr ((updater 1).inCamera b ![2, 0, 5])).1,
      (cvProject (updater 1).intr ((updater 1).inCamera b ![2, 0, 5])).2⟩, b, rfl, hp _, ?_, rfl⟩
    intro h0
    have := congrFun h0 0
    rw [MsckfUpdater.predicted, CamRowsSample.inCamera 1 _ _ _ b b3, b2] at this
    simp [Matrix.cons_val] at this
    norm_num at this

/-- The hypotheses of `C59_between_partial` are met by a camera that is not cloned, with observations between two clones and
between the last clone and now. -/
example : ∃ (e : Ekf ℝ) (g : CamState ℝ) (first : AugState ℝ) (f : FeatureTrack ℝ) (out : Ekf ℝ × Mat ℝ × Mat ℝ × Vec ℝ),
    e.Reachable realNum.toPrim ∧ e.state.cams.find? 1 = some g ∧ g.isExtrinsic = true ∧ ¬ e.ClonesFrame 1 ∧ e.OneWindow ∧
    (times e.track).Pairwise (· < ·) ∧ (e.window e.queryKey).head? = some first ∧
    f.track.map FeaturePoint.time = [1 / 2, 3 / 2] ∧ (∀ p ∈ f.track, first.time ≤ p.time ∧ p.time ≤ e.currentTime) ∧
    (updater 0).observeLoop realNum e.stateSize ((updater 0).camOf e).index ![2, 0, 5] 0 f.track e
      (blankRows f.track.length e.stateSize) = .ok out ∧
    (∀ p ∈ f.track, ∀ a, e.poseFor realNum.toPrim 1 p = .ok a → a.ang.normSq = 1 ∧ (updater 0).inCamera a ![2, 0, 5] 2 ≠ 0) := by
  obtain ⟨e, he, ht, hpr, hn, htime, hpos, hang, ⟨g, hg, hx⟩, hw⟩ := filterPrimary
  have hr : e.Reachable realNum.toPrim := ⟨params .primary, opsPrimary, opsPrimary_wf, he⟩
  have hT := hr.inv.tiles
  have hq : e.queryKey = 2 := by unfold queryKey; rw [if_pos ht, hpr]
  obtain ⟨a, b, hw, ⟨a1, a2, a3⟩, ⟨b1, b2, b3⟩⟩ : ∃ a b, e.window 2 = [a, b] ∧ (a.time = 0 ∧ a.pos = ![0, 0, 0] ∧ a.ang = Quat.one) ∧
      (b.time = 1 ∧ b.pos = ![1, 0, 0] ∧ b.ang = Quat.one) := by
    obtain ⟨a, b, h, h1, h2⟩ := map_two hw
    simp only [Prod.mk.injEq] at h1 h2
    exact ⟨a, b, h, h1, h2⟩
  have hc : ¬ e.ClonesFrame 1 := by
    rintro (h | ⟨_, h⟩)
    · rw [ht] at h; cases h
    · rw [hpr] at h; cases h
  have hone := C59_one_window realPrim (params .primary) opsPrimary e he (by rw [ht]; decide) opsPrimary_numbered
  have htr : e.track = [a, b, e.poseClone 0] := by rw [track, hq, hw]; rfl
  have hinc : (times e.track).Pairwise (· < ·) := by
    have : times e.track = [0, 1, 2] := by
      rw [htr]; simp only [times, List.map_cons, List.map_nil, a1, b1]
      rw [show (e.poseClone 0).time = e.currentTime from rfl, htime]
    rw [this]
    norm_num
  have hfirst : (e.window e.queryKey).head? = some a := by rw [hq, hw]; rfl
  have htrack : ∀ x ∈ e.track, x.ang = Quat.one ∧ x.pos 2 = 0 := by
    rw [htr]
    intro x hx
    simp only [List.mem_cons, List.not_mem_nil, or_false] at hx
    rcases hx with rfl | rfl | rfl
    · exact ⟨a3, by rw [a2]; rfl⟩
    · exact ⟨b3, by rw [b2]; rfl⟩
    · exact ⟨hang, by show e.state.body.pos 2 = 0; rw [hpos]; rfl⟩
  have hsl : ∀ t : ℝ, realNum.toPrim.slerp Quat.one t Quat.one = Quat.one := by
    intro t
    show slerp Quat.one t Quat.one = Quat.one
    unfold slerp
    simp [Quat.one]
    rw [if_neg (by norm_num)]
    ring
  let f : FeatureTrack ℝ := ⟨[⟨0, 1 / 2, 320, 240⟩, ⟨0, 3 / 2, 320, 240⟩], none⟩
  have hf : ∀ p ∈ f.track, a.time ≤ p.time ∧ p.time ≤ e.currentTime := by
    intro p hp
    rw [a1, htime]
    simp only [f, List.mem_cons, List.not_mem_nil, or_false] at hp
    rcases hp with rfl | rfl <;> norm_num
  have hpose : ∀ p ∈ f.track, ∃ x, e.poseFor realNum.toPrim 1 p = .ok x ∧ x.ang = Quat.one ∧ x.pos 2 = 0 ∧ x.index + 6 ≤ e.stateSize := by
    intro p hp
    obtain ⟨x, e', A, B, h1, ⟨⟨i, hA, hB⟩, _⟩, _, _, _, h4, h5, _, h6, h7, _⟩ :=
      C17_between_partial realNum.toPrim e 1 p.frameId p.time hc hinc a hfirst (hf p hp).1 (hf p hp).2
    have qA := htrack A (List.mem_of_getElem? hA)
    have qB := htrack B (List.mem_of_getElem? hB)
    refine ⟨x, getAugState_pose h1, ?_, ?_, ?_⟩
    · rw [h5, qA.1, qB.1]; exact hsl _
    · rw [h4]; simp [qA.2, qB.2]
    · rw [h6]; exact (aug_columns hT (find_of_window h7) h7).2
  have hcam : (updater 0).camOf e = g := camOf_eq hg
  obtain ⟨out, ho⟩ := observeLoop_defined realNum (updater 0) e.stateSize ((updater 0).camOf e).index ![2, 0, 5] (by omega)
    (fun _ => by rw [hcam]; exact (cam_columns hT hg hx).2) f.track 0 e (Mat.zero (2 * f.track.length) 3)
    (Mat.zero (2 * f.track.length) e.stateSize) ⟨2 * f.track.length, fun _ => 0⟩
    (fun p hp => by obtain ⟨x, h1, _, _, h2⟩ := hpose p hp; exact ⟨x, h1, h2⟩)
    (by show _ ≤ 2 * f.track.length; omega) ⟨by show _ ≤ 2 * f.track.length; omega, le_refl 3⟩
    ⟨by show _ ≤ 2 * f.track.length; omega, rfl⟩
  refine ⟨e, g, a, f, out, hr, hg, hx, hc, hone, hinc, hfirst, rfl, hf, ho, ?_⟩
  intro p hp x hx'
  obtain ⟨y, h1, h2, h3, _⟩ := hpose p hp
  rw [hx'] at h1
  cases h1
  refine ⟨by rw [h2]; exact one_unit, ?_⟩
  rw [CamRowsSample.inCamera 0 _ _ _ x h2]
  simp [h3]

/-- The hypotheses of `C59_defined` and `C59_stack` are met by a message of two features seen in both frames. -/
example : ∃ (e : Ekf ℝ) (fs : List (FeatureTrack ℝ)) (out : Ekf ℝ × Nat × Mat ℝ × Vec ℝ), e.Reachable realNum.toPrim ∧ fs.length = 2 ∧
    (updater 0).featureLoop realNum e.stateSize ((updater 0).camOf e).index fs e 0
      (Mat.zero ((fs.map fun f => 2 * f.track.length).sum) e.stateSize)
      ⟨(fs.map fun f => 2 * f.track.length).sum, fun _ => 0⟩ = .ok out := by
  obtain ⟨e, he, ht, hn, ⟨g, hg, hx, hi⟩, hw⟩ := CamRowsSample.filter
  obtain ⟨a, b, hw, ⟨a1, a2, a3⟩, ⟨b1, b2, b3⟩⟩ := window_of_map hw
  have hp := poses ht hw a1 b1
  have hr : e.Reachable realNum.toPrim := ⟨params .all, ops, ops_wf, he⟩
  have hfind : e.state.augs.find? 1 = some (e.window 1) := find_of_window (a := a) (by rw [hw]; simp)
  have hcam : (updater 0).camOf e = g := camOf_eq hg
  let f : V3 ℝ → FeatureTrack ℝ := fun F => ⟨[⟨5, 0, 320, 240⟩, ⟨6, 1, 320, 240⟩], some F⟩
  obtain ⟨out, ho⟩ := C59_defined realNum (updater 0) e.stateSize ((updater 0).camOf e).index (by omega)
    (fun _ => by rw [hcam]; exact (cam_columns hr.inv.tiles hg hx).2) rfl [f ![2, 0, 5], f ![0, 1, 7]] e 0
    (Mat.zero (([f ![2, 0, 5], f ![0, 1, 7]].map fun f => 2 * f.track.length).sum) e.stateSize)
    ⟨([f ![2, 0, 5], f ![0, 1, 7]].map fun f => 2 * f.track.length).sum, fun _ => 0⟩ (by
      intro x hx'
      have key : ∀ F, ∀ p ∈ (f F).track, ∃ c, e.poseFor realNum.toPrim (updater 0).id p = .ok c ∧ c.index + 6 ≤ e.stateSize := by
        intro F p hpt
        simp only [f, List.mem_cons, List.not_mem_nil, or_false] at hpt
        rcases hpt with rfl | rfl
        · exact ⟨a, hp _, (aug_columns hr.inv.tiles hfind (by rw [hw]; simp)).2⟩
        · exact ⟨b, hp _, (aug_columns hr.inv.tiles hfind (by rw [hw]; simp)).2⟩
      simp only [List.mem_cons, List.not_mem_nil, or_false] at hx'
      rcases hx' with rfl | rfl
      · exact ⟨le_refl 2, ⟨_, rfl⟩, key _⟩
      · exact ⟨le_refl 2, ⟨_, rfl⟩, key _⟩) (by rw [Nat.zero_add]; exact le_refl _) rfl (le_refl _)
  exact ⟨e, _, out, hr, rfl, ho⟩

end EkfCal
