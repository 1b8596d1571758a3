import Verif.Lemmas.Triangulate
import Verif.Lemmas.Reduce
import Verif.Spec.Samples

/-!
# C46: triangulation only accepts plausible features
-/

namespace EkfCal
open Ekf
variable {K : Type} [Field K] [LinearOrder K]

/-- **With the observations in use** (the switch `m_use_true_triangulation` off; the constructor turns it on, see
`C46_default_violated`): a feature is accepted exactly when the depth solved from the observations is in the band; the
accepted position is the solved one and has that depth in the first camera. -/
theorem C46_band_partial [IsStrictOrderedRing K] (N : Num K) (u : MsckfUpdater K) (e : Ekf K) (f : FeatureTrack K)
    (r : Bool × Option (V3 K) × Ekf K) (h : u.triangulate N e f = .ok r) (hu : u.useTruth = false)
    (hc : u.angC.normSq = 1) (p0 : FeaturePoint K) (hp0 : f.track.head? = some p0) (a0 : AugState K)
    (ha0 : e.poseFor N.toPrim u.id p0 = .ok a0) (h0 : a0.ang.normSq = 1) (hr : r.1 = true) :
    ∃ F, r.2.1 = some F ∧ u.InBand (u.inCamera a0 F 2) := by
  obtain ⟨q0, ps, b0, hf, hb0, _, as, _, _, z, _, _, hz⟩ := triangulate_form h
  have : q0 = p0 := by rw [hf] at hp0; simpa using hp0
  subst this
  rw [ha0] at hb0
  cases hb0
  rcases hz hu with ⟨_, h1, _⟩ | ⟨hb, _, h2⟩
  · rw [h1] at hr; cases hr
  refine ⟨_, h2, ?_⟩
  have hF : u.inCamera a0 (a0.ang.toMat.mulVec (u.angC.rotate z + u.posC) + a0.pos) = z := by
    have h1 : a0.ang.toMat.mulVec (u.angC.rotate z + u.posC) + a0.pos - u.centre a0 =
        (a0.ang.toMat * u.angC.toMat).mulVec z := by
      rw [MsckfUpdater.centre, Matrix.mulVec_add, ← Matrix.mulVec_mulVec, Quat.rotate_toMat]
      abel
    rw [inCamera_eq, h1, Matrix.mulVec_mulVec]
    have h2 : u.angC.toMat.transpose * a0.ang.toMat.transpose * (a0.ang.toMat * u.angC.toMat) = 1 := by
      rw [Matrix.mul_assoc, ← Matrix.mul_assoc a0.ang.toMat.transpose, toMat_transpose_mul h0, Matrix.one_mul,
        toMat_transpose_mul hc]
    rw [h2, Matrix.one_mulVec]
  rw [hF]
  push Not at hb
  exact hb

/-- **Exact observations give the feature itself**: if every observation is the image of the point `F` and two of the camera
centres are not in line with it, the feature is accepted exactly when its depth in the first camera is in the band, and
its position is then `F`. -/
theorem C46_exact_partial [IsStrictOrderedRing K] (N : Num K) (hs : N.toPrim.SqrtLaw) (hsol : N.SolveLaw) (u : MsckfUpdater K)
    (e : Ekf K) (f : FeatureTrack K) (r : Bool × Option (V3 K) × Ekf K) (h : u.triangulate N e f = .ok r)
    (hu : u.useTruth = false) (hc : u.angC.normSq = 1) (F : V3 K)
    (hsee : ∀ p ∈ f.track, ∀ a, e.poseFor N.toPrim u.id p = .ok a → a.ang.normSq = 1 ∧ u.Sees a p F)
    (p0 : FeaturePoint K) (hp0 : f.track.head? = some p0) (a0 : AugState K) (ha0 : e.poseFor N.toPrim u.id p0 = .ok a0)
    (hpar : ∃ p ∈ f.track, ∃ q ∈ f.track, ∃ a b, e.poseFor N.toPrim u.id p = .ok a ∧ e.poseFor N.toPrim u.id q = .ok b ∧
      V3.cross (F - u.centre a) (F - u.centre b) ≠ 0) :
    (r.1 = true ↔ u.InBand (u.inCamera a0 F 2)) ∧ (r.1 = true → r.2.1 = some F) := by
  obtain ⟨q0, ps, b0, hf, hb0, _, as, hlen, has, z, hz, _, hzb⟩ := triangulate_form h
  have : q0 = p0 := by rw [hf] at hp0; simpa using hp0
  subst this
  rw [ha0] at hb0
  cases hb0
  have hm0 : q0 ∈ f.track := by rw [hf]; exact List.mem_cons_self ..
  have hu0 : a0.ang.normSq = 1 := (hsee q0 hm0 a0 ha0).1
  have hzip : ∀ x ∈ as.zip f.track, e.poseFor N.toPrim u.id x.2 = .ok x.1 ∧ x.2 ∈ f.track := by
    intro x hx
    obtain ⟨i, hi, rfl⟩ := List.getElem_of_mem hx
    rw [List.length_zip] at hi
    have h1 : i < as.length := by omega
    have h2 : i < f.track.length := by omega
    rw [List.getElem_zip]
    exact ⟨has i _ _ (List.getElem?_eq_getElem h2) (List.getElem?_eq_getElem h1), List.getElem_mem h2⟩
  have hmem : ∀ p ∈ f.track, ∃ a, (a, p) ∈ as.zip f.track := by
    intro p hp
    obtain ⟨i, hi, rfl⟩ := List.getElem_of_mem hp
    have h1 : i < as.length := by omega
    refine ⟨as[i], ?_⟩
    rw [← List.getElem_zip (h := by rw [List.length_zip]; omega)]
    exact List.getElem_mem _
  have hsolve : z = u.inCamera a0 F := by
    rw [hz]
    refine solve_exact hs hsol hc hu0 _ (fun x hx => ?_) ?_
    · obtain ⟨g1, g2⟩ := hzip x hx
      exact hsee _ g2 _ g1
    · obtain ⟨p, hp, q, hq, a, b, hpa, hqb, hx⟩ := hpar
      obtain ⟨a', ha'⟩ := hmem p hp
      obtain ⟨b', hb'⟩ := hmem q hq
      have e1 := (hzip _ ha').1
      have e2 := (hzip _ hb').1
      rw [hpa] at e1
      rw [hqb] at e2
      cases e1
      cases e2
      exact ⟨_, ha', _, hb', hx⟩
  have hback : a0.ang.toMat.mulVec (u.angC.rotate z + u.posC) + a0.pos = F := by
    rw [hsolve, Quat.rotate_toMat, inCamera_eq, Matrix.mulVec_add, Matrix.mulVec_mulVec, Matrix.mulVec_mulVec]
    have h2 : a0.ang.toMat * u.angC.toMat * (u.angC.toMat.transpose * a0.ang.toMat.transpose) = 1 := by
      rw [Matrix.mul_assoc, ← Matrix.mul_assoc u.angC.toMat, toMat_mul_transpose hc, Matrix.one_mul, toMat_mul_transpose hu0]
    rw [h2, Matrix.one_mulVec, MsckfUpdater.centre]
    abel
  rcases hzb hu with ⟨hb, h1, _⟩ | ⟨hb, h1, h2⟩
  · rw [h1]
    refine ⟨⟨fun h => absurd h Bool.false_ne_true, fun hin => ?_⟩, fun h => absurd h Bool.false_ne_true⟩
    rw [← hsolve] at hin
    rcases hb with hb | hb
    · exact absurd hin.1 (not_le.2 hb)
    · exact absurd hin.2 (not_le.2 hb)
  · push Not at hb
    rw [h1, h2, hback]
    refine ⟨⟨fun _ => ?_, fun _ => rfl⟩, fun _ => rfl⟩
    rw [← hsolve]
    exact hb

theorem featureLoop_dropped (N : Num K) (u : MsckfUpdater K) (n c : Nat) (fs : List (FeatureTrack K)) :
    ∀ (e : Ekf K) (ct : Nat) (H : Mat K) (r : Vec K),
      (∀ f ∈ fs, ∀ e1, e.Looked e1 → ∃ p e2, u.triangulate N e1 f = .ok (false, p, e2)) →
      ∃ e', u.featureLoop N n c fs e ct H r = .ok (e', ct, H, r) ∧ e.Looked e' := by
  induction fs with
  | nil => intro e ct H r _; exact ⟨e, rfl, .refl _⟩
  | cons f fs ih =>
    intro e ct H r h
    obtain ⟨p, e2, h2⟩ := h f (List.mem_cons_self ..) e (.refl _)
    obtain ⟨_, _, _, _, _, hl, _⟩ := triangulate_form h2
    have hl' : e.Looked e2 := hl
    obtain ⟨e', h3, h4⟩ := ih e2 ct H r fun g hg e1 he1 => h g (List.mem_cons_of_mem _ hg) e1 (hl'.trans he1)
    refine ⟨e', ?_, hl'.trans h4⟩
    rw [MsckfUpdater.featureLoop, h2, ok_bind]
    exact h3

/-- **A rejected feature is not used**: it adds no row to the measurement and leaves the filter as it was (apart from the
empty clone window a lookup may enter). -/
theorem C46_dropped (N : Num K) (u : MsckfUpdater K) (n c ct : Nat) (e e' : Ekf K) (f : FeatureTrack K)
    (fs : List (FeatureTrack K)) (p : Option (V3 K)) (H : Mat K) (r : Vec K) (h : u.triangulate N e f = .ok (false, p, e')) :
    u.featureLoop N n c (f :: fs) e ct H r = u.featureLoop N n c fs e' ct H r ∧ e.Looked e' := by
  obtain ⟨_, _, _, _, _, hl, _⟩ := triangulate_form h
  refine ⟨?_, hl⟩
  rw [MsckfUpdater.featureLoop, h, ok_bind]
  rfl

/-- **A message whose features are all rejected changes nothing**: no correction is made. -/
theorem C46_all_dropped (N : Num K) (u : MsckfUpdater K) (e : Ekf K) (fs : List (FeatureTrack K)) (px : K)
    (h : ∀ f ∈ fs, ∀ e1, e.Looked e1 → ∃ p e2, u.triangulate N e1 f = .ok (false, p, e2)) :
    ∃ e', u.process N e fs px = .ok e' ∧ e.Looked e' := by
  obtain ⟨e', h1, h2⟩ := featureLoop_dropped N u e.stateSize (u.camOf e).index fs e 0
    (Mat.zero ((fs.map fun f => 2 * f.track.length).sum) e.stateSize) ⟨(fs.map fun f => 2 * f.track.length).sum, fun _ => 0⟩ h
  refine ⟨e', ?_, h2⟩
  unfold MsckfUpdater.process
  dsimp only
  rw [h1, ok_bind]
  rfl

/-- **Violated in the configuration the constructor sets up**: every feature is accepted, whatever its observations and
wherever the triangulated point lies, and its position is taken from the message. -/
theorem C46_default_violated (N : Num K) (id : Nat) (ext : Bool) (d : K) (u : MsckfUpdater K) (e : Ekf K) (f : FeatureTrack K)
    (hu : u.useTruth = (MsckfUpdater.new id ext d).useTruth) (r : Bool × Option (V3 K) × Ekf K)
    (h : u.triangulate N e f = .ok r) : r.1 = true ∧ r.2.1 = f.truth := by
  obtain ⟨_, _, _, _, _, _, _, _, _, z, _, ht, _⟩ := triangulate_form h
  exact ht hu

/-- **Violated for tracks of the real tracker**, which does not fill in a position: processing them reads an uninitialised
vector, in every filter state in which the poses of the track can be found. -/
theorem C46_uninitialised_violated (N : Num K) (id : Nat) (ext : Bool) (d : K) (u : MsckfUpdater K) (e : Ekf K)
    (f : FeatureTrack K) (fs : List (FeatureTrack K)) (px : K) (hu : u.useTruth = (MsckfUpdater.new id ext d).useTruth)
    (hf : f.truth = none) (r : Bool × Option (V3 K) × Ekf K) (h : u.triangulate N e f = .ok r) :
    u.process N e (f :: fs) px = .error .uninitialised := by
  obtain ⟨h1, h2⟩ := C46_default_violated N id ext d u e f hu r h
  obtain ⟨b, p, e1⟩ := r
  dsimp only at h1 h2
  subst h1 h2
  rw [hf] at h
  unfold MsckfUpdater.process
  dsimp only
  rw [MsckfUpdater.featureLoop, h, ok_bind]
  rfl

/-! ### A concrete case -/

namespace TriangulateSample

open Classical in
/-- The real conversions, with a solver that meets its law. -/
noncomputable def num : Num ℝ :=
  { realNum with solve := fun A b => if h : ∃ x, A.mulVec x = b then Classical.choose h else 0 }

theorem num_solve : num.SolveLaw := by
  intro A b x hx hinj
  have h : ∃ x, A.mulVec x = b := ⟨x, hx⟩
  have he : num.solve A b = Classical.choose h := dif_pos h
  rw [he]
  have h1 := Classical.choose_spec h
  have h2 := hinj (Classical.choose h - x) (by rw [Matrix.mulVec_sub, h1, hx, sub_self])
  exact sub_eq_zero.1 h2

theorem num_sqrt : num.toPrim.SqrtLaw := fun x hx => ⟨Real.sqrt_nonneg x, Real.mul_self_sqrt hx⟩

/-- Two clones a metre apart. -/
noncomputable def clone (f : Nat) (t x : ℝ) : AugState ℝ :=
  { (AugState.default : AugState ℝ) with frameId := f, time := t, pos := ![x, 0, 0], ang := Quat.one }

noncomputable def filter : Ekf ℝ :=
  let e := Ekf.init num.toPrim ⟨.all, 1, 1, 1, ⟨18, fun _ => 1⟩, 0, Quat.one, 0, 0, .constant, 100, 1, 1, 1, 100, false, false⟩
  { e with state := { e.state with augs := [(1, [clone 1 0 0, clone 2 1 1])] } }

/-- Unit focal length, image of 640 by 480 pixels. -/
noncomputable def updater (truth : Bool) : MsckfUpdater ℝ :=
  { MsckfUpdater.new 1 false 1 with useTruth := truth, intr := ⟨1, 1, 0, 0, 0, 0, 640, 480, 1⟩ }

/-- The point at the given depth on the axis of the first camera, seen from both clones. -/
noncomputable def track (z : ℝ) : FeatureTrack ℝ := ⟨[⟨1, 0, 320, 240⟩, ⟨2, 1, 320 - 1 / z, 240⟩], none⟩

theorem poses (z : ℝ) : ∀ p ∈ (track z).track, ∀ a, filter.poseFor num.toPrim 1 p = .ok a →
    (a = clone 1 0 0 ∧ p = ⟨1, 0, 320, 240⟩) ∨ (a = clone 2 1 1 ∧ p = ⟨2, 1, 320 - 1 / z, 240⟩) := by
  intro p hp a ha
  rcases List.mem_cons.1 hp with rfl | hp
  · left
    refine ⟨?_, rfl⟩
    have : filter.poseFor num.toPrim 1 ⟨1, 0, 320, 240⟩ = .ok (clone 1 0 0) := rfl
    rw [this] at ha; cases ha; rfl
  · right
    rcases List.mem_cons.1 hp with rfl | hp
    · refine ⟨?_, rfl⟩
      have : filter.poseFor num.toPrim 1 ⟨2, 1, 320 - 1 / z, 240⟩ = .ok (clone 2 1 1) := rfl
      rw [this] at ha; cases ha; rfl
    · cases hp

theorem inCamera (t : Bool) (f : Nat) (tm x z : ℝ) : (updater t).inCamera (clone f tm x) ![0, 0, z] = ![-x, 0, z] := by
  have h1 : (Quat.one : Quat ℝ).toMat = 1 := by
    funext i j; fin_cases i <;> fin_cases j <;> simp [Quat.toMat, Quat.one]
  have hC : (updater t).angC = Quat.one := rfl
  have hP : (updater t).posC = 0 := rfl
  have hA : (clone f tm x).ang = Quat.one := rfl
  have hx : (clone f tm x).pos = ![x, 0, 0] := rfl
  rw [MsckfUpdater.inCamera, MsckfUpdater.centre, hC, hP, hA, hx, h1]
  simp only [Matrix.transpose_one, Matrix.one_mulVec, zero_add]
  funext i
  fin_cases i <;> simp

theorem sees (t : Bool) {z : ℝ} (hz : 0 < z) : ∀ p ∈ (track z).track, ∀ a, filter.poseFor num.toPrim 1 p = .ok a →
    a.ang.normSq = 1 ∧ (updater t).Sees a p ![0, 0, z] := by
  intro p hp a ha
  have hi : (updater t).intr = ⟨1, 1, 0, 0, 0, 0, 640, 480, 1⟩ := rfl
  rcases poses z p hp a ha with ⟨rfl, rfl⟩ | ⟨rfl, rfl⟩
  · refine ⟨by simp [clone, Quat.one, Quat.normSq], ?_, ?_, ?_⟩
    · rw [inCamera]; simpa using hz
    · rw [hi]; exact ⟨by norm_num, by norm_num, by norm_num⟩
    · rw [inCamera, hi, Intrinsics.pixelAt, Prod.mk.injEq]; constructor <;> simp <;> ring
  · refine ⟨by simp [clone, Quat.one, Quat.normSq], ?_, ?_, ?_⟩
    · rw [inCamera]; simpa using hz
    · rw [hi]; exact ⟨by norm_num, by norm_num, by norm_num⟩
    · rw [inCamera, hi, Intrinsics.pixelAt, Prod.mk.injEq]; constructor <;> simp <;> ring

end TriangulateSample
open TriangulateSample

/-- The hypotheses of `C46_exact_partial` are met by a point ahead of two clones a metre apart: at 50 m it is accepted, at
200 m rejected, and, with the constructor's setting, 200 m is accepted without a position. -/
example : (∃ e', (updater false).triangulate num filter (track 50) = .ok (true, some ![0, 0, 50], e')) ∧
    (∃ p e', (updater false).triangulate num filter (track 200) = .ok (false, p, e')) ∧
    (∃ e', (updater true).triangulate num filter (track 200) = .ok (true, none, e')) := by
  have hdef : ∀ t z, ∃ r, (updater t).triangulate num filter (track z) = .ok r := by
    intro t z
    unfold MsckfUpdater.triangulate
    have h1 : (track z).track = ⟨1, 0, 320, 240⟩ :: [⟨2, 1, 320 - 1 / z, 240⟩] := rfl
    rw [h1]
    have h2 : ∃ x, (updater t).triangulateLoop num (clone 1 0 0) (⟨1, 0, 320, 240⟩ :: [⟨2, 1, 320 - 1 / z, 240⟩])
        { filter with state := { filter.state with augs := filter.state.augs.touch 1 [] } } 0 0 = .ok x := ⟨_, rfl⟩
    obtain ⟨⟨A, b, e2⟩, h2⟩ := h2
    have h3 : filter.getAugState num.toPrim (updater t).id 1 0 = .ok (clone 1 0 0,
        { filter with state := { filter.state with augs := filter.state.augs.touch 1 [] } }) := rfl
    dsimp only
    rw [h3, ok_bind]
    dsimp only
    rw [h2, ok_bind]
    dsimp only
    cases t <;> split <;> exact ⟨_, rfl⟩
  have hexact : ∀ z, 0 < z → ∀ r, (updater false).triangulate num filter (track z) = .ok r →
      (r.1 = true ↔ (updater false).InBand z) ∧ (r.1 = true → r.2.1 = some ![0, 0, z]) := by
    intro z hz r hr
    have := C46_exact_partial num num_sqrt num_solve (updater false) filter (track z) r hr rfl
      (by simp [updater, MsckfUpdater.new, Quat.one, Quat.normSq]) ![0, 0, z] (sees false hz) ⟨1, 0, 320, 240⟩ rfl (clone 1 0 0) rfl
      ⟨⟨1, 0, 320, 240⟩, List.mem_cons_self .., ⟨2, 1, 320 - 1 / z, 240⟩, List.mem_cons_of_mem _ (List.mem_cons_self ..),
        clone 1 0 0, clone 2 1 1, rfl, rfl, fun h => by
          have h1 := congrFun h 1
          have hP : (updater false).posC = 0 := rfl
          simp [MsckfUpdater.centre, hP, clone, V3.cross] at h1
          exact hz.ne' h1⟩
    rw [inCamera] at this
    simpa using this
  have hmin : (updater false).minDist = 1 := rfl
  have hmax : (updater false).maxDist = 100 := rfl
  refine ⟨?_, ?_, ?_⟩
  · obtain ⟨⟨b, p, e'⟩, hr⟩ := hdef false 50
    obtain ⟨h1, h2⟩ := hexact 50 (by norm_num) _ hr
    have hb : b = true := h1.2 ⟨by rw [hmin]; norm_num, by rw [hmax]; norm_num⟩
    subst hb
    have := h2 rfl
    dsimp only at this
    subst this
    exact ⟨e', hr⟩
  · obtain ⟨⟨b, p, e'⟩, hr⟩ := hdef false 200
    obtain ⟨h1, _⟩ := hexact 200 (by norm_num) _ hr
    have hb : b = false := by
      rw [← Bool.not_eq_true]
      intro hb
      have := (h1.1 hb).2
      rw [hmax] at this
      norm_num at this
    subst hb
    exact ⟨p, e', hr⟩
  · obtain ⟨⟨b, p, e'⟩, hr⟩ := hdef true 200
    obtain ⟨h1, h2⟩ := C46_default_violated num 1 false 1 (updater true) filter (track 200) rfl _ hr
    dsimp only at h1 h2
    subst h1 h2
    exact ⟨e', hr⟩

end EkfCal
