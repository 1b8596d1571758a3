import Verif.Lemmas.RealScales
import Verif.Lemmas.Reduce
import Verif.Spec.Joint
import Verif.Lemmas.CovHist
import Verif.Lemmas.Station

/-!
# C93: only the ratios of the uncertainties matter
-/

set_option linter.unusedSectionVars false

namespace EkfCal
open Ekf
variable {K : Type} [Field K] [LinearOrder K]

/-- The parameters with all standard deviations larger by the factor `s`. -/
def EkfParams.scaled (s : K) (p : EkfParams K) : EkfParams K :=
  { p with processNoise := p.processNoise.times (s * s), motionDetectionChiSquared := p.motionDetectionChiSquared / (s * s) }

/-- **Histories of calls to the filter**, in either form: multiply the standard deviations of the state, of the process and of all
measurements by one factor.  The run ends as before, well or badly, and if well with the same estimates and with standard deviations
multiplied by the factor. -/
theorem C93_history_partial (N : Prim K) (s : K) (hN : N.Scales s) (ops : List (Op K)) : ∀ e : Ekf K,
    Ekf.run N (e.scaled s) (ops.map (·.scaled s e.useRoot)) = Ekf.scaled s <$> Ekf.run N e ops := by
  induction ops with
  | nil => intro e; rfl
  | cons op ops ih =>
    intro e
    refine bind_mapped_of (Ekf.step_scaled hN e op) fun e1 h1 => ?_
    have := ih e1
    rw [step_useRoot h1] at this
    exact this

theorem event_flags {N : Num K} {G : GpsNum K} {c : Call K} {x x' : Station K} (h : x.step N G c = .ok x') :
    x'.ekf.useRoot = x.ekf.useRoot ∧ (x.ekf.isLlaInitialized = true → x'.ekf.isLlaInitialized = true) := by
  have hr : x.run N G [c] = .ok x' := by
    show (do let s ← x.step N G c; Station.run N G s []) = _
    rw [h]
    rfl
  obtain ⟨ops, ho⟩ := Station.filter_moves hr
  refine ⟨?_, (run_flags ho).2⟩
  exact run_induct (P := fun _ => True) (R := fun a b => b.useRoot = a.useRoot) (fun _ => rfl) (fun _ _ _ g h => h.trans g)
    (fun _ _ _ _ h => step_useRoot h) (fun _ _ => trivial) ho

/-- **Histories of events**: the same for readings, fixes, board detections and tracks.  Readings of IMUs in standard form, fixes
once the reference is known, tracks with pixel errors of at least half a pixel. -/
theorem C93_station_partial [IsStrictOrderedRing K] (N : Num K) (G : GpsNum K) (s : K) (hN : N.toPrim.Scales s) (cs : List (Call K)) :
    ∀ x : Station K, (x.ekf.isLlaInitialized = true ∨ ∀ c ∈ cs, ¬ c.IsFix) → (∀ c ∈ cs, c.Free s x.ekf.useRoot) →
      (x.scaled s).run N G (cs.map (·.scaled s x.ekf.useRoot)) = Station.scaled s <$> x.run N G cs := by
  induction cs with
  | nil => intro x _ _; rfl
  | cons c cs ih =>
    intro x hl hc
    refine bind_mapped_of (Station.step_scaled hN x c (fun hf => hl.elim id fun h => absurd hf (h c (List.mem_cons_self ..)))
      (hc c (List.mem_cons_self ..))) fun x1 h1 => ?_
    obtain ⟨hu, hi⟩ := event_flags h1
    have := ih x1 (hl.imp hi fun h c' h' => h c' (List.mem_cons_of_mem _ h'))
      (fun c' h' => by rw [hu]; exact hc c' (List.mem_cons_of_mem _ h'))
    rw [hu] at this
    exact this

/-- What is reported: the poses and calibrations are the same, the variances and covariances are larger by the square of the factor. -/
theorem C93_reported (s : K) (e : Ekf K) :
    (e.scaled s).state.body = e.state.body ∧ (e.scaled s).state.augs = e.state.augs ∧
    (∀ (k : Nat) (i : ImuState K), e.state.imus.find? k = some i → ∃ i', (e.scaled s).state.imus.find? k = some i' ∧
      i'.pos = i.pos ∧ i'.ang = i.ang ∧ i'.accBias = i.accBias ∧ i'.omgBias = i.omgBias) ∧
    (∀ (k : Nat) (i : GpsState K), e.state.gpss.find? k = some i → ∃ i', (e.scaled s).state.gpss.find? k = some i' ∧ i'.pos = i.pos) ∧
    (∀ (k : Nat) (i : CamState K), e.state.cams.find? k = some i → ∃ i', (e.scaled s).state.cams.find? k = some i' ∧
      i'.pos = i.pos ∧ i'.ang = i.ang) ∧
    (∀ (k : Nat) (i : FidState K), e.state.fids.find? k = some i → ∃ i', (e.scaled s).state.fids.find? k = some i' ∧
      i'.pos = i.pos ∧ i'.ang = i.ang) ∧
    (e.scaled s).currentTime = e.currentTime ∧ ∀ i j, (e.scaled s).P i j = e.P i j * (s * s) := by
  refine ⟨rfl, rfl, fun k i h => ⟨i.scaled (s * s), ?_, rfl, rfl, rfl, rfl⟩, fun k i h => ⟨i.scaled (s * s), ?_, rfl⟩,
    fun k i h => ⟨i.scaled (s * s), ?_, rfl, rfl⟩, fun k i h => ⟨i.scaled (s * s), ?_, rfl, rfl⟩, rfl, fun i j => ?_⟩
  · exact (UMap.find?_mapValues _ _ _).trans (by rw [h]; rfl)
  · exact (UMap.find?_mapValues _ _ _).trans (by rw [h]; rfl)
  · exact (UMap.find?_mapValues _ _ _).trans (by rw [h]; rfl)
  · exact (UMap.find?_mapValues _ _ _).trans (by rw [h]; rfl)
  · unfold Ekf.P
    show (if e.useRoot then gram (e.cov.smul (scaleOf s e.useRoot)) i j else e.cov.get i j * scaleOf s e.useRoot) = _
    cases e.useRoot with
    | true =>
      show gram (e.cov.smul s) i j = gram e.cov i j * (s * s)
      unfold gram
      rw [Finset.sum_mul]
      exact Finset.sum_congr rfl fun k _ => by
        show e.cov.get k i * s * (e.cov.get k j * s) = _
        ring
    | false => rfl

/-- **The same estimates**: the two together. -/
theorem C93_estimates_partial [IsStrictOrderedRing K] (N : Num K) (G : GpsNum K) (s : K) (hN : N.toPrim.Scales s) (cs : List (Call K))
    (x x' : Station K) (hl : x.ekf.isLlaInitialized = true ∨ ∀ c ∈ cs, ¬ c.IsFix) (hc : ∀ c ∈ cs, c.Free s x.ekf.useRoot)
    (h : x.run N G cs = .ok x') : ∃ y', (x.scaled s).run N G (cs.map (·.scaled s x.ekf.useRoot)) = .ok y' ∧
      y'.ekf.state.body = x'.ekf.state.body ∧ y'.ekf.state.augs = x'.ekf.state.augs ∧
      (∀ (k : Nat) (i : GpsState K), x'.ekf.state.gpss.find? k = some i → ∃ i', y'.ekf.state.gpss.find? k = some i' ∧ i'.pos = i.pos) ∧
      ∀ i j, y'.ekf.P i j = x'.ekf.P i j * (s * s) := by
  refine ⟨x'.scaled s, (C93_station_partial N G s hN cs x hl hc).trans (by rw [h]; rfl), ?_⟩
  obtain ⟨a, b, _, g, _, _, _, p⟩ := C93_reported s x'.ekf
  exact ⟨a, b, g, p⟩

/-- A filter as configured: all uncertainties follow the configuration, except the initial covariance of the body, which no parameter
gives. -/
theorem C93_start_partial (N : Prim K) (s : K) (p : EkfParams K) :
    (init N p).scaled s = { init N (p.scaled s) with cov := (init N p).cov.smul (scaleOf s p.useRoot) } := by
  have h : (Mat.zero bodySize bodySize : Mat K).smul (scaleOf s p.useRoot) = Mat.zero bodySize bodySize := zero_smul_mat ..
  unfold init Ekf.scaled
  simp only [h]
  rfl

/-- **A pixel error under half a pixel is not used**: the update is the one for half a pixel. -/
theorem C93_pixel (N : Num K) (u : MsckfUpdater K) (e : Ekf K) (t : K) (i : Intrinsics K) (fs : List (FeatureTrack K)) (px : K)
    (h : px ≤ 1 / 2) : u.update N e t i fs px = u.update N e t i fs (1 / 2) := by
  unfold MsckfUpdater.update MsckfUpdater.process
  simp only [max_eq_right h, max_self]

/-- **The uncertainty of the fixes is not used until the reference is known**, nor by the fix that makes it known. -/
theorem C93_first (N : Num K) (G : GpsNum K) (u : GpsUpdater K) (e e1 : Ekf K) (t : K) (x : V3 K) (c c' : Mat K)
    (h1 : (e.calculateLocalTime t).2.predict N.toPrim (e.calculateLocalTime t).1 = .ok e1) (h : e1.isLlaInitialized = false) :
    u.update N G e t x c = u.update N G e t x c' := by
  unfold GpsUpdater.update
  generalize e.calculateLocalTime t = p at h1 ⊢
  obtain ⟨t, e⟩ := p
  simp only [h1, ok_bind, h, if_true]

/-! ## The initial covariance of the body -/

/-- The position of the body along the first axis is measured as 1. -/
def C93_ops : List (Op ℚ) := [.kalman ⟨1, 18, fun _ k => if k = 0 then 1 else 0⟩ ⟨1, fun _ => 1⟩ ⟨1, 1, fun _ _ => 1 / 100⟩]

/-- **Not so for the configuration**: multiply all standard deviations a user gives, those of the process, of the calibrations and of
the measurements, by two.  The estimates change, as the covariance of the body starts at a fixed value. -/
theorem C93_violated : ¬ ∀ (N : Prim ℚ) (s : ℚ) (p : EkfParams ℚ) (ops : List (Op ℚ)) (e e' : Ekf ℚ), N.InvLaw → N.Scales s →
    Ekf.run N (init N p) ops = .ok e → Ekf.run N (init N (p.scaled s)) (ops.map (·.scaled s p.useRoot)) = .ok e' →
    e'.state.body.pos = e.state.body.pos := by
  intro h
  obtain ⟨e, he, h1⟩ := Samples.ok_of_check (r := Ekf.run Samples.scaleNum.toPrim (init Samples.scaleNum.toPrim (Samples.params .none false)) C93_ops)
    (P := fun e : Ekf ℚ => e.state.body.pos 0 = 1 / 2) (by decide +kernel)
  obtain ⟨e', he', h2⟩ := Samples.ok_of_check
    (r := Ekf.run Samples.scaleNum.toPrim (init Samples.scaleNum.toPrim ((Samples.params .none false).scaled 2)) (C93_ops.map (·.scaled 2 false)))
    (P := fun e : Ekf ℚ => e.state.body.pos 0 = 1 / 5) (by decide +kernel)
  have := congrFun (h Samples.scaleNum.toPrim 2 (Samples.params .none false) C93_ops e e' Samples.scaleNum_inv
    (Samples.scaleNum_scales (by norm_num)) he he') 0
  rw [h1, h2] at this
  norm_num at this

/-! ## Cases that meet the hypotheses -/

/-- Real square roots, triangular factors and inverses meet the law, for every factor. -/
example (s : ℝ) (hs : 0 < s) : realNum.toPrim.Scales s := realPrim_scales hs

/-- All kinds of events after registrations, with a numeric library that meets the law, in standard form. -/
example : Samples.scaleNum.toPrim.Scales 3 ∧ Samples.scaleNum.toPrim.InvLaw ∧
    (∀ c ∈ Samples.calls, c.Free 3 (Station.init Samples.scaleNum (Samples.params .all false)).ekf.useRoot) ∧
    (Station.init Samples.scaleNum (Samples.params .all false)).ekf.isLlaInitialized = true ∧
    ∃ s, (Station.init Samples.scaleNum (Samples.params .all false)).run Samples.scaleNum Samples.gpsNum (Samples.calls.take 13) = .ok s ∧
      s.ekf.currentTime = 1 := by
  refine ⟨Samples.scaleNum_scales (by norm_num), Samples.scaleNum_inv, ?_, rfl,
    Samples.ok_of_check (P := fun s : Station ℚ => s.ekf.currentTime = 1) (by decide +kernel)⟩
  intro c h
  simp only [Samples.calls, List.mem_cons, List.not_mem_nil, or_false] at h
  rcases h with rfl | rfl | rfl | rfl | rfl | rfl | rfl | rfl | rfl | rfl | rfl | rfl | rfl | rfl | rfl | rfl | rfl <;>
    first | trivial | rfl | exact ⟨by norm_num, by norm_num⟩

end EkfCal
