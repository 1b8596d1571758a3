import Verif.Lemmas.Config
import Verif.Lemmas.Noise
import Verif.Lemmas.Frame
import Verif.Spec.Noise
import Verif.Spec.Samples
import Verif.Props.C08

/-!
# C48 — process noise drives the component it is configured for

Full statement: every prediction adds to each variance exactly the noise configured for it times the elapsed time, from
the first prediction on and as soon as it is configured.  For sensors and clones it holds after every history
(`C48_sensors`, `C48_clones`).  For the body the setting takes effect only when a sensor or clone is next added or
dropped: `C48_first_violated`, `C48_set_violated`; `C48_body_partial` says which setting is in force,
`C48_in_force_partial` that the current one is after a registration.
-/

set_option linter.unusedSectionVars false

namespace EkfCal
open Ekf Finset
variable {K : Type} [Field K] [LinearOrder K]

/-- Every noise group of a sensor lies inside an index range published for it. -/
theorem noise_in_blocks (s : State K) {n : Nat} (h : Tiles s.blocks 0 n) (x : Nat × K) (hx : x ∈ s.noise) :
    18 ≤ x.1 ∧ x.1 + 3 ≤ n := by
  have key : ∃ b ∈ mapBlocks ImuState.blocks s.imus ++ mapBlocks GpsState.blocks s.gpss ++
      mapBlocks CamState.blocks s.cams ++ mapBlocks FidState.blocks s.fids, b.1 ≤ x.1 ∧ x.1 + 3 ≤ b.1 + b.2 := by
    simp only [State.noise, mapNoise, List.mem_append, List.mem_flatMap] at hx
    simp only [mapBlocks, List.mem_append, List.mem_flatMap]
    rcases hx with ((⟨y, hy, hx⟩ | ⟨y, hy, hx⟩) | ⟨y, hy, hx⟩) | ⟨y, hy, hx⟩
    · unfold ImuState.noise at hx
      rcases List.mem_append.1 hx with hx | hx
      · split at hx
        · rename_i he
          refine ⟨(y.2.indexExtrinsic, 6), .inl (.inl (.inl ⟨y, hy, by simp [ImuState.blocks, he]⟩)), ?_⟩
          simp only [List.mem_cons, List.not_mem_nil, or_false] at hx
          rcases hx with rfl | rfl <;> exact ⟨by simp, by simp⟩
        · cases hx
      · split at hx
        · rename_i he
          refine ⟨(y.2.indexIntrinsic, 6), .inl (.inl (.inl ⟨y, hy, by simp [ImuState.blocks, he]⟩)), ?_⟩
          simp only [List.mem_cons, List.not_mem_nil, or_false] at hx
          rcases hx with rfl | rfl <;> exact ⟨by simp, by simp⟩
        · cases hx
    · unfold GpsState.noise at hx
      split at hx
      · rename_i he
        refine ⟨(y.2.index, 3), .inl (.inl (.inr ⟨y, hy, by simp [GpsState.blocks, he]⟩)), ?_⟩
        simp only [List.mem_cons, List.not_mem_nil, or_false] at hx
        subst hx; exact ⟨by simp, by simp⟩
      · cases hx
    · unfold CamState.noise at hx
      split at hx
      · rename_i he
        refine ⟨(y.2.index, 6), .inl (.inr ⟨y, hy, by simp [CamState.blocks, he]⟩), ?_⟩
        simp only [List.mem_cons, List.not_mem_nil, or_false] at hx
        rcases hx with rfl | rfl <;> exact ⟨by simp, by simp⟩
      · cases hx
    · unfold FidState.noise at hx
      split at hx
      · rename_i he
        refine ⟨(y.2.index, 6), .inr ⟨y, hy, by simp [FidState.blocks, he]⟩, ?_⟩
        simp only [List.mem_cons, List.not_mem_nil, or_false] at hx
        rcases hx with rfl | rfl <;> exact ⟨by simp, by simp⟩
      · cases hx
  obtain ⟨b, hb, h1, h2⟩ := key
  have ht : Tiles ((mapBlocks ImuState.blocks s.imus ++ mapBlocks GpsState.blocks s.gpss ++
      mapBlocks CamState.blocks s.cams ++ mapBlocks FidState.blocks s.fids) ++ mapBlocks augBlocks s.augs) 18 n := by
    have := h.2
    simpa [State.blocks, List.append_assoc] using this
  obtain ⟨m, t1, t2⟩ := ht.append_inv
  have b1 := t1.mem_bounds hb
  have b2 := t2.end_eq
  omega

theorem clone_in_blocks (s : State K) {n : Nat} (h : Tiles s.blocks 0 n) (a : AugState K) (ha : a ∈ s.clones) :
    18 ≤ a.index ∧ a.index + 6 ≤ n := by
  have hb : (a.index, 6) ∈ mapBlocks augBlocks s.augs := by
    simp only [State.clones, List.mem_flatMap] at ha
    obtain ⟨w, hw, ha⟩ := ha
    simp only [mapBlocks, List.mem_flatMap]
    exact ⟨w, hw, List.mem_map.2 ⟨a, ha, rfl⟩⟩
  have ht : Tiles ((mapBlocks ImuState.blocks s.imus ++ mapBlocks GpsState.blocks s.gpss ++
      mapBlocks CamState.blocks s.cams ++ mapBlocks FidState.blocks s.fids) ++ mapBlocks augBlocks s.augs) 18 n := by
    have := h.2
    simpa [State.blocks, List.append_assoc] using this
  obtain ⟨m, t1, t2⟩ := ht.append_inv
  have b1 := t2.mem_bounds hb
  have b2 := t1.end_eq
  dsimp only at b1
  omega

/-- Diagonal of the predicted covariance outside the position rows. -/
theorem predicted_diag (n : Nat) (hn : 18 ≤ n) (P Q : Mat K) (dt : K) (r : Nat) (h3 : 3 ≤ r) (hr : r < n) :
    predicted n P Q dt r r = P.get r r + Q.get r r * dt := by
  unfold predicted
  rw [congr_transition (by omega) dt _ hr hr, tr_of_ge _ _ h3, tr_of_ge _ _ h3, if_pos rfl]

/-- The diagonal of the position rows: position variance, its correlation with velocity, and the velocity variance, each
with its own noise. -/
theorem predicted_pos (n : Nat) (hn : 18 ≤ n) (P Q : Mat K) (dt : K) (r : Nat) (h3 : r < 3) :
    predicted n P Q dt r r = (P.get r r + Q.get r r * dt) + dt * (P.get r (r + 3) + P.get (r + 3) r) +
      dt * dt * (P.get (r + 3) (r + 3) + Q.get (r + 3) (r + 3) * dt) := by
  unfold predicted
  rw [congr_transition (by omega) dt _ (by omega) (by omega)]
  unfold tr
  rw [if_pos h3]
  simp only [if_pos h3, if_true]
  rw [if_neg (show ¬ r = r + 3 by omega), if_neg (show ¬ r + 3 = r by omega)]
  ring

/-- After any history, predicting adds to the variance of every calibrated sensor quantity exactly the noise density that
its sensor carries, times the elapsed time. -/
theorem C48_sensors (N : Prim K) (p : EkfParams K) (hp : p.useRoot = false) (ops : List (Op K)) (hw : ∀ op ∈ ops, op.WF)
    (e : Ekf K) (h : run N (init N p) ops = .ok e) (hu : e.useRoot = false) (hg : e.isGravityInitialized = true)
    (ha : e.augType ≠ .time ∧ e.augType ≠ .error) (t : K) (ht : e.currentTime ≤ t) :
    ∃ e', predict N e t = .ok e' ∧ ∀ x ∈ e.state.noise, ∀ k, k < 3 →
      e'.cov.get (x.1 + k) (x.1 + k) = e.cov.get (x.1 + k) (x.1 + k) + x.2 * (t - e.currentTime) := by
  have hi := inv_run (inv_init N p) hw h
  have h18 : 18 ≤ e.cov.rows := by rw [hi.covRows, hi.size]; unfold State.dim; omega
  obtain ⟨e', h1, _, _, h4⟩ := C08_formula N p ops hw e h hu hg ha t ht
  refine ⟨e', h1, fun x hx k hk => ?_⟩
  obtain ⟨b1, b2⟩ := noise_in_blocks e.state hi.tiles x hx
  rw [← hi.covRows] at b2
  rw [h4 _ _ (by omega) (by omega), predicted_diag _ h18 _ _ _ _ (by omega) (by omega)]
  obtain ⟨_, d, _, hd, hq, _⟩ := noise_run (H := fun _ => True) (Z := True) (noise_init_std trivial p hp trivial)
    (fun op _ => by cases op <;> trivial) h
  rw [hq, hu]
  simp only [Bool.false_eq_true, if_false, if_true]
  rw [hd.sensors x hx k hk]

/-- After any history, predicting leaves the variances of clones alone. -/
theorem C48_clones (N : Prim K) (p : EkfParams K) (hp : p.useRoot = false) (ops : List (Op K)) (hw : ∀ op ∈ ops, op.WF)
    (e : Ekf K) (h : run N (init N p) ops = .ok e) (hu : e.useRoot = false) (hg : e.isGravityInitialized = true)
    (ha : e.augType ≠ .time ∧ e.augType ≠ .error) (t : K) (ht : e.currentTime ≤ t) :
    ∃ e', predict N e t = .ok e' ∧ ∀ a ∈ e.state.clones, ∀ k, k < 6 →
      e'.cov.get (a.index + k) (a.index + k) = e.cov.get (a.index + k) (a.index + k) := by
  have hi := inv_run (inv_init N p) hw h
  have h18 : 18 ≤ e.cov.rows := by rw [hi.covRows, hi.size]; unfold State.dim; omega
  obtain ⟨e', h1, _, _, h4⟩ := C08_formula N p ops hw e h hu hg ha t ht
  refine ⟨e', h1, fun a ha k hk => ?_⟩
  obtain ⟨b1, b2⟩ := clone_in_blocks e.state hi.tiles a ha
  rw [← hi.covRows] at b2
  rw [h4 _ _ (by omega) (by omega), predicted_diag _ h18 _ _ _ _ (by omega) (by omega)]
  obtain ⟨_, d, _, hd, hq, _⟩ := noise_run (H := fun _ => True) (Z := True) (noise_init_std trivial p hp trivial)
    (fun op _ => by cases op <;> trivial) h
  rw [hq, hu]
  simp only [Bool.false_eq_true, if_false, if_true]
  rw [hd.clones a ha k, zero_mul, add_zero]

/-- `q` is a body noise in force: a vector configured at construction or later, or, while the state has only the body,
no noise at all. -/
def BodyNoise (p : EkfParams K) (ops : List (Op K)) (e : Ekf K) (q : Nat → K) : Prop :=
  ((∀ k, k < 18 → q k = 0) ∧ e.stateSize = 18) ∨
    ∃ v : Vec K, (v = p.processNoise ∨ Op.setBodyProcessNoise v ∈ ops) ∧ ∀ k, k < 18 → q k = v.get k

/-- After any history, predicting adds to each body variance the noise of a vector that was configured for it at some
point (or none, while no sensor or clone is in the state); velocity noise also reaches position through the motion. -/
theorem C48_body_partial (N : Prim K) (p : EkfParams K) (hp : p.useRoot = false) (ops : List (Op K)) (hw : ∀ op ∈ ops, op.WF)
    (e : Ekf K) (h : run N (init N p) ops = .ok e) (hu : e.useRoot = false) (hg : e.isGravityInitialized = true)
    (ha : e.augType ≠ .time ∧ e.augType ≠ .error) (t : K) (ht : e.currentTime ≤ t) :
    ∃ e' q, predict N e t = .ok e' ∧ BodyNoise p ops e q ∧
      (∀ r, 3 ≤ r → r < 18 → e'.cov.get r r = e.cov.get r r + q r * (t - e.currentTime)) ∧
      ∀ r, r < 3 → e'.cov.get r r = (e.cov.get r r + q r * (t - e.currentTime)) +
        (t - e.currentTime) * (e.cov.get r (r + 3) + e.cov.get (r + 3) r) +
        (t - e.currentTime) * (t - e.currentTime) * (e.cov.get (r + 3) (r + 3) + q (r + 3) * (t - e.currentTime)) := by
  have hi := inv_run (inv_init N p) hw h
  have h18 : 18 ≤ e.cov.rows := by rw [hi.covRows, hi.size]; unfold State.dim; omega
  obtain ⟨e', h1, _, _, h4⟩ := C08_formula N p ops hw e h hu hg ha t ht
  obtain ⟨_, d, body, hd, hq, hb⟩ := noise_run (H := fun v => v = p.processNoise ∨ Op.setBodyProcessNoise v ∈ ops)
    (Z := True) (noise_init_std trivial p hp (.inl rfl))
    (fun op ho => by cases op <;> first | exact .inr ho | trivial) h
  have hQ : ∀ r, r < 18 → e.processNoise.get r r = body r := by
    intro r hr
    rw [hq, hu]
    simp only [Bool.false_eq_true, if_false, if_true]
    exact hd.bodyRows r hr
  refine ⟨e', body, h1, hb.imp (fun h => h.2) id, fun r hr hr' => ?_, fun r hr => ?_⟩
  · rw [h4 _ _ (by omega) (by omega), predicted_diag _ h18 _ _ _ _ hr (by omega), hQ r hr']
  · rw [h4 _ _ (by omega) (by omega), predicted_pos _ h18 _ _ _ _ hr, hQ r (by omega), hQ (r + 3) (by omega)]

/-- The call registers a sensor that the filter does not know yet. -/
def RegistersNew (e : Ekf K) : Op K → Prop
  | .registerIMU id _ _ => e.state.imus.find? id = none
  | .registerGPS id _ _ => e.state.gpss.find? id = none
  | .registerCamera id _ _ => e.state.cams.find? id = none
  | .registerFiducial s _ => e.state.fids.find? s.id = none
  | _ => False

theorem noise_registersNew (N : Prim K) (e1 e2 : Ekf K) (op : Op K) (hr : RegistersNew e1 op) (h1 : step N e1 op = .ok e2) :
    NoiseInv N (fun v => v = e1.bodyProcessNoise) False e2 := by
  cases op <;> first | exact hr.elim | skip
  · obtain ⟨hx, _⟩ | ⟨_, _, _, h⟩ := registerIMU_form h1
    · rw [hr] at hx; cases hx
    · exact noise_refresh (by exact rfl) h
  · obtain ⟨hx, _⟩ | ⟨_, _, _, h⟩ := registerGPS_form h1
    · rw [hr] at hx; cases hx
    · exact noise_refresh (by exact rfl) h
  · obtain ⟨hx, _⟩ | ⟨_, _, _, _, h⟩ := registerCamera_form h1
    · rw [hr] at hx; cases hx
    · exact noise_refresh (by exact rfl) h
  · obtain ⟨hx, _⟩ | ⟨_, _, _, h⟩ := registerFiducial_form h1
    · rw [hr] at hx; cases hx
    · exact noise_refresh (by exact rfl) h

/-- Once a new sensor has been registered, and as long as the body noise is not reconfigured, the body noise in force is
the one configured (its square root in square-root mode). -/
theorem C48_in_force_partial (N : Prim K) (e1 e2 e : Ekf K) (op : Op K)
    (hr : RegistersNew e1 op) (h1 : step N e1 op = .ok e2) (ops : List (Op K))
    (ho : ∀ v, Op.setBodyProcessNoise v ∉ ops) (h2 : run N e2 ops = .ok e) :
    e.bodyProcessNoise = e1.bodyProcessNoise ∧ ∀ k, k < 18 → e.processNoise.get k k =
      if e1.useRoot then N.sqrt (e1.bodyProcessNoise.get k) else e1.bodyProcessNoise.get k := by
  have hn := noise_registersNew N e1 e2 op hr h1
  exact ⟨(run_bodyNoise ho h2).1.trans hn.cfg, fun k hk => noise_in_force hn (step_useRoot h1) ho h2 k hk⟩

/-- Before anything is registered the configured noise has no effect: unit noise is configured, a second passes, and the
velocity variance does not grow. -/
theorem C48_first_violated : ∃ e e' : Ekf ℚ,
    run Samples.prim (init Samples.prim (Samples.params .none false)) [.initializeGravity] = .ok e ∧
    e.bodyProcessNoise.get 3 = 1 ∧ predict Samples.prim e 1 = .ok e' ∧ e'.currentTime - e.currentTime = 1 ∧
    e'.cov.get 3 3 = e.cov.get 3 3 := by
  let c : Res (Ekf ℚ × Ekf ℚ) := do
    let e ← run Samples.prim (init Samples.prim (Samples.params .none false)) [.initializeGravity]
    let e' ← predict Samples.prim e 1
    pure (e, e')
  obtain ⟨⟨e, e'⟩, hc, h⟩ := Samples.ok_of_check (r := c)
    (P := fun x => x.1.bodyProcessNoise.get 3 = 1 ∧ x.2.currentTime - x.1.currentTime = 1 ∧
      x.2.cov.get 3 3 = x.1.cov.get 3 3) (by decide +kernel)
  simp only [c, bind_ok_iff, pure_res, Except.ok.injEq, Prod.mk.injEq] at hc
  obtain ⟨_, g1, _, g2, rfl, rfl⟩ := hc
  exact ⟨_, _, g1, h.1, g2, h.2.1, h.2.2⟩

/-- A changed setting has no effect either: five is configured, a second passes, and the velocity variance grows by
one. -/
theorem C48_set_violated : ∃ e e' : Ekf ℚ,
    run Samples.prim (init Samples.prim (Samples.params .none false))
      [.registerGPS 7 Samples.gps (Samples.cov 3), .initializeGravity, .setBodyProcessNoise ⟨18, fun _ => 5⟩] = .ok e ∧
    e.bodyProcessNoise.get 3 = 5 ∧ predict Samples.prim e 1 = .ok e' ∧ e'.currentTime - e.currentTime = 1 ∧
    e'.cov.get 3 3 = e.cov.get 3 3 + 1 := by
  let c : Res (Ekf ℚ × Ekf ℚ) := do
    let e ← run Samples.prim (init Samples.prim (Samples.params .none false))
      [.registerGPS 7 Samples.gps (Samples.cov 3), .initializeGravity, .setBodyProcessNoise ⟨18, fun _ => 5⟩]
    let e' ← predict Samples.prim e 1
    pure (e, e')
  obtain ⟨⟨e, e'⟩, hc, h⟩ := Samples.ok_of_check (r := c)
    (P := fun x => x.1.bodyProcessNoise.get 3 = 5 ∧ x.2.currentTime - x.1.currentTime = 1 ∧
      x.2.cov.get 3 3 = x.1.cov.get 3 3 + 1) (by decide +kernel)
  simp only [c, bind_ok_iff, pure_res, Except.ok.injEq, Prod.mk.injEq] at hc
  obtain ⟨_, g1, _, g2, rfl, rfl⟩ := hc
  exact ⟨_, _, g1, h.1, g2, h.2.1, h.2.2⟩

/-- A history that meets the hypotheses of the theorems above: the antenna carries a noise group, the last call registers
a new sensor after the noise was reconfigured. -/
example : ∃ e1 e2 : Ekf ℚ,
    run Samples.prim (init Samples.prim (Samples.params .none false))
      [.registerGPS 7 Samples.gps (Samples.cov 3), .initializeGravity, .setBodyProcessNoise ⟨18, fun _ => 5⟩] = .ok e1 ∧
    RegistersNew e1 (.registerGPS 8 Samples.gps (Samples.cov 3)) ∧
    step Samples.prim e1 (.registerGPS 8 Samples.gps (Samples.cov 3)) = .ok e2 ∧ e2.state.noise.length = 2 ∧
    e2.isGravityInitialized = true ∧ e2.augType = .none := by
  let c : Res (Ekf ℚ × Ekf ℚ) := do
    let e ← run Samples.prim (init Samples.prim (Samples.params .none false))
      [.registerGPS 7 Samples.gps (Samples.cov 3), .initializeGravity, .setBodyProcessNoise ⟨18, fun _ => 5⟩]
    let e' ← step Samples.prim e (.registerGPS 8 Samples.gps (Samples.cov 3))
    pure (e, e')
  obtain ⟨⟨e, e'⟩, hc, h⟩ := Samples.ok_of_check (r := c)
    (P := fun x => (x.1.state.gpss.find? 8).isNone = true ∧ x.2.state.noise.length = 2 ∧ x.2.isGravityInitialized = true ∧
      x.2.augType = .none) (by decide +kernel)
  simp only [c, bind_ok_iff, pure_res, Except.ok.injEq, Prod.mk.injEq] at hc
  obtain ⟨_, g1, _, g2, rfl, rfl⟩ := hc
  exact ⟨_, _, g1, Option.isNone_iff_eq_none.1 h.1, g2, h.2.1, h.2.2.1, h.2.2.2⟩

end EkfCal
