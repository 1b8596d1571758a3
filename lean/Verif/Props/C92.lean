import Verif.Lemmas.Silent
import Verif.Props.C03
import Verif.Props.C91

/-!
# C92 — a sensor that does not report does not matter
-/

set_option linter.unusedSectionVars false

namespace EkfCal
open Ekf Finset
variable {K : Type} [Field K] [LinearOrder K] [IsStrictOrderedRing K]

/-- A measurement that asks for nothing but what both filters estimate leaves them in agreement: what the small filter
estimates, and how certain it is of it, is what the large filter estimates.  Either form of the filter. -/
theorem C92_measurement (N : Prim K) (hN : N.Lawful) (σ : Nat → Nat) (e f e' f' : Ekf K) (H H' : Mat K) (r : Vec K) (R : Mat K)
    (he : Measured N e H r R e') (hf : Measured N f H' r R f') (Ri : Nat → Nat → K) (hRi : AreInverse H.rows R.get Ri)
    (hie : Inv e) (hif : Inv f) (hσ : Renumbering σ e.stateSize f.stateSize) (hH : H.Spread σ e.stateSize H') (h : e.Inside σ f) :
    e'.Inside σ f' := by
  obtain ⟨B, hB⟩ := C86_innovation N e e' H r R he Ri hRi
  have hB' : AreInverse H'.rows (innovation f.cov.rows f.P H' R) B := by
    rw [hH.rows]
    refine areInverse_same hB fun a b => ?_
    rw [hif.covRows, hie.covRows]
    exact innovation_spread hσ h.cov hH a b
  obtain ⟨a1, a2, a3, a4⟩ := measured_form N hN e e' H r R he B hB
  obtain ⟨b1, b2, b3, b4⟩ := measured_form N hN f f' H' r R hf B hB'
  rw [hie.covRows] at a1 a4
  rw [hif.covRows] at b1 b4
  have hG : ∀ i, i < e.stateSize → ∀ a, kalmanGain f.stateSize f.P H' B (σ i) a = kalmanGain e.stateSize e.P H B i a :=
    fun i hi a => gain_spread hσ h.cov hH B hi a
  have hs : e'.stateSize = e.stateSize := by obtain ⟨_, _, hx⟩ := kalman_rest he.update; rw [hx]
  refine ⟨?_, fun i j hi hj => ?_⟩
  · rw [State.addVec_moved N _ _ e.stateSize hie.laid.tiles (le_refl _)] at a1
    rw [State.addVec_moved N _ _ f.stateSize hif.laid.tiles (le_refl _)] at b1
    rw [← Except.ok.inj a1, ← Except.ok.inj b1]
    refine h.state.moved N hie.laid.tiles hσ.body fun i hi => ?_
    show ∑ a ∈ range H'.rows, _ = ∑ a ∈ range H.rows, _
    rw [hH.rows]
    exact sum_congr rfl fun a _ => by rw [hG i hi a]
  · rw [hs] at hi hj
    rw [a4 i j hi hj, b4 _ _ (hσ.lt i hi) (hσ.lt j hj)]
    exact joseph_spread hσ h.cov hH hG hi hj

/-- Small and large filter in step. -/
structure Twins (N : Prim K) (σ : Nat → Nat) (e f : Ekf K) : Prop where
  left : CovInv N e
  right : CovInv N f
  time : f.currentTime = e.currentTime
  gravity : f.isGravityInitialized = e.isGravityInitialized
  still : f.isZeroAcceleration = e.isZeroAcceleration
  untimed : ¬ AugType.Timed e.augType ∧ ¬ AugType.Timed f.augType
  noise : ∀ i, i < e.stateSize → f.processNoise.get (σ i) (σ i) = e.processNoise.get i i
  number : Renumbering σ e.stateSize f.stateSize
  inside : e.Inside σ f

theorem Twins.predict {N : Prim K} {σ : Nat → Nat} {e f e' f' : Ekf K} {t : K} (h : Twins N σ e f) (he : predict N e t = .ok e')
    (hf : Ekf.predict N f t = .ok f') : Twins N σ e' f' := by
  have ce : CovInv N e' := covInv_step h.left (op := .predict t) trivial trivial he
  have cf : CovInv N f' := covInv_step h.right (op := .predict t) trivial trivial hf
  obtain ⟨t1, rfl⟩ | ⟨t1, b, out, hb, he⟩ := predict_form he
  · obtain ⟨t2, rfl⟩ | ⟨t2, _⟩ := predict_form hf
    · exact h
    · exact absurd t2 (not_le.2 (h.time ▸ t1))
  · obtain ⟨t2, rfl⟩ | ⟨t2, b', out', hb', hf⟩ := predict_form hf
    · exact absurd t1 (not_le.2 (h.time ▸ t2))
    · obtain ⟨_, rfl⟩ | ⟨h0, _⟩ := augmentTimed_form he
      swap; · exact absurd h0 h.untimed.1
      obtain ⟨_, rfl⟩ | ⟨h0, _⟩ := augmentTimed_form hf
      swap; · exact absurd h0 h.untimed.2
      have hP : ∀ i j, i < e.stateSize → j < e.stateSize → f.cov.get (σ i) (σ j) = e.cov.get i j := by
        have := h.inside.cov
        simpa [Ekf.P, h.left.root, h.right.root] using this
      have n1 := h.left.inv
      have n2 := h.right.inv
      have l18 : 18 ≤ e.stateSize := by rw [n1.size]; unfold State.dim; omega
      have l18' : 18 ≤ f.stateSize := by rw [n2.size]; unfold State.dim; omega
      have core : b' = b ∧ ∀ i j, i < e.stateSize → j < e.stateSize → out'.get (σ i) (σ j) = out.get i j := by
        obtain ⟨g, rfl, rfl⟩ | ⟨g, rfl, ho⟩ := hb <;> obtain ⟨g', rfl, rfl⟩ | ⟨g', rfl, ho'⟩ := hb'
        · exact ⟨h.inside.state.body, hP⟩
        · rw [h.gravity, g] at g'; cases g'
        · rw [h.gravity, g] at g'; cases g'
        · refine ⟨by rw [h.inside.state.body, h.time, h.still], ?_⟩
          obtain ⟨_, p1, p2, _, p4⟩ := predictCov_spec N e.cov e.processNoise (t - e.currentTime) (by rw [n1.covRows, n1.covCols])
            (by rw [n1.covRows]; exact l18) (by rw [n1.noiseRows, n1.covRows]) (by rw [n1.noiseCols, n1.covRows])
          obtain ⟨_, q1, q2, _, q4⟩ := predictCov_spec N f.cov f.processNoise (t - f.currentTime) (by rw [n2.covRows, n2.covCols])
            (by rw [n2.covRows]; exact l18') (by rw [n2.noiseRows, n2.covRows]) (by rw [n2.noiseCols, n2.covRows])
          rw [h.left.root, ← n1.covRows] at ho
          rw [h.right.root, ← n2.covRows] at ho'
          obtain rfl := Except.ok.inj (ho.symm.trans p1)
          obtain rfl := Except.ok.inj (ho'.symm.trans q1)
          rw [n1.covRows] at p4
          rw [n2.covRows] at q4
          intro i j hi hj
          rw [p4 i j hi hj, q4 _ _ (h.number.lt i hi) (h.number.lt j hj), congr_transition (by omega) _ _ hi hj,
            congr_transition (by omega) _ _ (h.number.lt i hi) (h.number.lt j hj), h.time]
          refine h.number.tr l18 _ (fun k hk => ?_) hi
          show EkfCal.tr _ _ (σ j) = EkfCal.tr _ _ j
          refine h.number.tr l18 _ (fun l hl => ?_) hj
          rw [hP k l hk hl, h.noise k hk]
          congr 1
          by_cases hkl : k = l
          · rw [if_pos hkl, if_pos (by rw [hkl])]
          · rw [if_neg hkl, if_neg fun hx => hkl (h.number.inj k l hk hl hx)]
      refine ⟨ce, cf, rfl, h.gravity, h.still, h.untimed, h.noise, h.number, ?_, ?_⟩
      · exact ⟨core.1, h.inside.state.imus, h.inside.state.gpss, h.inside.state.cams, h.inside.state.fids, h.inside.state.augs⟩
      · intro i j hi hj
        have r1 : e.useRoot = false := h.left.root
        have r2 : f.useRoot = false := h.right.root
        simp only [Ekf.P, r1, r2]
        exact core.2 i j hi hj

theorem Twins.measure {N : Prim K} (hN : N.Lawful) {σ : Nat → Nat} {e f e' f' : Ekf K} {H H' R : Mat K} {r : Vec K}
    (h : Twins N σ e f) (hR : R.IsCov) (iR : ∃ Ri, AreInverse H.rows R.get Ri) (hH : H.Spread σ e.stateSize H')
    (he : kalmanUpdate N e H r R = .ok e') (hf : kalmanUpdate N f H' r R = .ok f') : Twins N σ e' f' := by
  have ce : CovInv N e' := covInv_step h.left (op := .kalman H r R) trivial hR he
  have cf : CovInv N f' := covInv_step h.right (op := .kalman H' r R) trivial hR hf
  obtain ⟨Ri, iR⟩ := iR
  have hs := C92_measurement N hN σ e f e' f' H H' r R ⟨fun _ => h.left.cov, hR, fun x => absurd x (by rw [h.left.root]; simp), he⟩
    ⟨fun _ => h.right.cov, hR, fun x => absurd x (by rw [h.right.root]; simp), hf⟩ Ri iR h.left.inv h.right.inv h.number hH h.inside
  obtain ⟨_, _, rfl⟩ := kalman_rest he
  obtain ⟨_, _, rfl⟩ := kalman_rest hf
  exact ⟨ce, cf, h.time, h.gravity, h.still, h.untimed, h.noise, h.number, hs⟩

theorem twins_run {N : Prim K} (hN : N.Lawful) {σ : Nat → Nat} {n : Nat} (ops : List (Paired K)) :
    ∀ {e f e' f' : Ekf K}, Twins N σ e f → e.stateSize = n → (∀ o ∈ ops, o.OK σ n) → run N e (ops.map Paired.small) = .ok e' →
      run N f (ops.map Paired.large) = .ok f' → Twins N σ e' f' := by
  induction ops with
  | nil => intro e f e' f' h _ _ he hf; cases he; cases hf; exact h
  | cons o ops ih =>
    intro e f e' f' h hn ho he hf
    simp only [List.map_cons, run, bind_ok_iff] at he hf
    obtain ⟨e1, he1, he⟩ := he
    obtain ⟨f1, hf1, hf⟩ := hf
    have h0 := ho o (List.mem_cons_self ..)
    have key : Twins N σ e1 f1 ∧ e1.stateSize = n := by
      cases o with
      | predict t =>
        refine ⟨h.predict he1 hf1, ?_⟩
        have := (h.predict he1 hf1)
        obtain ⟨_, hx⟩ | ⟨_, b, out, _, hx⟩ := predict_form he1
        · rw [hx]; exact hn
        · obtain ⟨_, hx⟩ | ⟨h0, _⟩ := augmentTimed_form hx
          · rw [hx]; exact hn
          · exact absurd h0 h.untimed.1
      | measure H H' r R =>
        refine ⟨h.measure hN h0.1 h0.2.1 (hn ▸ h0.2.2) he1 hf1, ?_⟩
        obtain ⟨_, _, hx⟩ := kalman_rest he1
        rw [hx]; exact hn
    exact ih key.1 key.2 (fun o' h' => ho o' (List.mem_cons_of_mem _ h')) he hf

/-! ## Registration of the silent sensor -/

theorem twins_via {N : Prim K} {e e1 e' : Ekf K} {A M B : List (Label × Nat)} {b : Bool} {c : Mat K} {n : Nat}
    (h : refreshIndices N e1 = .ok e') (hi : CovInv N e) (hi' : CovInv N e') (hu : ¬ AugType.Timed e.augType)
    (hnoise : ∀ i, i < 18 → e.processNoise.get i i = e.bodyProcessNoise.get i)
    (ht : e1.currentTime = e.currentTime ∧ e1.isGravityInitialized = e.isGravityInitialized ∧
      e1.isZeroAcceleration = e.isZeroAcceleration ∧ e1.augType = e.augType ∧ e1.bodyProcessNoise = e.bodyProcessNoise ∧ e1.useRoot = e.useRoot)
    (hb : b = false → n = 0) (hA : 18 ≤ nameSize A)
    (hn : e.state.names = A ++ B) (hn' : e1.state.names = A ++ M ++ B) (hsz : e1.stateSize = e.stateSize + n) (hM : nameSize M = n)
    (hout : Inserted b c e.cov n (nameSize A) e1.cov) (hbody : e1.state.body = e.state.body)
    (himu : ∀ k v, e.state.imus.find? k = some v → e1.state.imus.find? k = some v)
    (hgps : ∀ k v, e.state.gpss.find? k = some v → e1.state.gpss.find? k = some v)
    (hcam : ∀ k v, e.state.cams.find? k = some v → e1.state.cams.find? k = some v)
    (hfid : ∀ k v, e.state.fids.find? k = some v → e1.state.fids.find? k = some v)
    (haug : ∀ k v, e.state.augs.find? k = some v → e1.state.augs.find? k = some v) : ∃ σ, Twins N σ e e' := by
  have hd : e1.state.dim = e1.stateSize := by
    rw [← State.nameSize_names, hn', hsz, hi.inv.size, ← State.nameSize_names, hn]
    simp only [nameSize_append]; omega
  obtain ⟨_, h1, _, h3⟩ := refreshIndices_ok hd.le h
  have l := hi.inv.laid
  have l' := hi'.inv.laid
  have hsz' : e'.stateSize = e.stateSize + n := by rw [h3]; exact hsz
  have hcov : e'.cov = e1.cov := by rw [h3]
  have f := frame2_refresh h
  subst hM
  have hn'' : e1.state.reindex.names = A ++ M ++ B := by rw [State.names_reindex]; exact hn'
  have hle : nameSize A ≤ e.stateSize := by
    rw [hi.inv.size, ← State.nameSize_names, hn, nameSize_append]; omega
  have hP : InsertedP e.P e.stateSize (nameSize A) (nameSize M) (startCov e.useRoot (nameSize M) c) e'.P := by
    rw [Ekf.P_eq, Ekf.P_eq, hi.root, hi'.root, hcov]
    exact inserted_P hb hout hi.inv.covRows hi.inv.covCols hle
  have hs : e.state.Inside (shiftAt (nameSize A) (nameSize M)) e'.state := by
    rw [h1] at l' ⊢
    exact insert_inside l l' hn hn'' hbody himu hgps hcam hfid haug
  refine ⟨shiftAt (nameSize A) (nameSize M), hi, hi', ?_, ?_, ?_, ⟨hu, ?_⟩, ?_, ?_, hs, ?_⟩
  · rw [h3]; exact ht.1
  · rw [h3]; exact ht.2.1
  · rw [h3]; exact ht.2.2.1
  · rw [h3]; exact fun hx => hu (ht.2.2.2.1 ▸ hx)
  · intro i hi2
    obtain ⟨_, d, body, hd1, hd2, _⟩ := hi.noise
    obtain ⟨d', hd1', hd2'⟩ := refreshIndices_noise h
    rw [ht.2.2.2.2.2, hi.root] at hd2'
    have e1n : ∀ i, e.processNoise.get i i = d i := fun i => by rw [hd2, hi.root]; simp
    have e2n : ∀ i, e'.processNoise.get i i = d' i := fun i => by rw [hd2']; simp [diagMat]
    rw [e1n, e2n]
    refine diag_inside hs l hd1 hd1' (shiftAt_renumbering (n := 0) hA).body (fun k hk => ?_) hi2
    rw [← hd1.bodyRows k hk, ← e1n, hnoise k hk, ht.2.2.2.2.1]
  · rw [hsz']; exact shiftAt_renumbering hA
  · intro i j hi2 hj2
    have b1 : shiftAt (nameSize A) (nameSize M) i < e.stateSize + nameSize M := by unfold shiftAt; split <;> omega
    have b2 : shiftAt (nameSize A) (nameSize M) j < e.stateSize + nameSize M := by unfold shiftAt; split <;> omega
    have key : ∀ i, ¬ (nameSize A ≤ shiftAt (nameSize A) (nameSize M) i ∧ shiftAt (nameSize A) (nameSize M) i < nameSize A + nameSize M) := by
      intro i; unfold shiftAt; split <;> omega
    have back : ∀ i, (if shiftAt (nameSize A) (nameSize M) i < nameSize A then shiftAt (nameSize A) (nameSize M) i
        else shiftAt (nameSize A) (nameSize M) i - nameSize M) = i := by
      intro i; unfold shiftAt; split_ifs <;> omega
    rw [hP _ _ b1 b2, if_neg (key i), if_neg (key j), back, back]

theorem find_insert_keep {V : Type} {m : UMap V} {id : Nat} {s : V} (hnew : m.find? id = none) (k : Nat) (v : V)
    (h : m.find? k = some v) : (m.insert id s).find? k = some v := by
  rw [UMap.find?_insert_ne _ _ (fun hk => by rw [hk, hnew] at h; cases h)]; exact h

/-- A further GPS antenna, registered in the order of ids. -/
theorem twins_gps {N : Prim K} {e e' : Ekf K} {id : Nat} {s : GpsState K} {c : Mat K} (hi : CovInv N e)
    (hu : ¬ AugType.Timed e.augType) (hnoise : ∀ i, i < 18 → e.processNoise.get i i = e.bodyProcessNoise.get i) (hw : s.WF)
    (ho : (Op.registerGPS id s c).CovOK) (hnew : e.state.gpss.find? id = none)
    (hid : s.dim = 0 ∨ ∀ x ∈ e.state.gpss, id < x.1 → x.2.dim = 0) (h : registerGPS N e id s c = .ok e') : ∃ σ, Twins N σ e e' := by
  have hi' : CovInv N e' := covInv_step hi (op := .registerGPS id s c) hw ho h
  rcases registerGPS_form h with ⟨hf, _⟩ | ⟨_, out, ho, hrf⟩
  · rw [hnew] at hf; cases hf
  · rw [hw] at ho
    refine twins_via (c := c) (b := s.isExtrinsic) (A := [(.body, 18)] ++ mapNames ImuState.entries e.state.imus ++ mapNames GpsState.entries e.state.gpss)
      (M := (s.entries id).map Entry.name) (B := mapNames CamState.entries e.state.cams
        ++ mapNames FidState.entries e.state.fids ++ mapNames (fun k w => augEntriesFrom k w 0) e.state.augs)
      hrf hi hi' hu hnoise ⟨rfl, rfl, rfl, rfl, rfl, rfl⟩ ?_ ?_ ?_ ?_ rfl (gps_nameSize id s) ?_ rfl
      (fun _ _ x => x) (find_insert_keep hnew) (fun _ _ x => x) (fun _ _ x => x) (fun _ _ x => x)
    · exact fun hb => by unfold GpsState.dim; simp [hb]
    · simp only [nameSize_append]; simp [nameSize]; omega
    · rw [State.names_eq]; simp
    · rw [State.names_eq]
      dsimp only
      rw [mapNames_insert_end gps_nameSize gps_pos hi.inv.sorted.gpss hnew hid]; simp
    · rw [nameSize_append, nameSize_append, nameSize_mapNames imu_nameSize, nameSize_mapNames gps_nameSize]
      rw [hi.inv.imu, hi.inv.gps] at ho
      exact ho

/-- A further IMU. -/
theorem twins_imu {N : Prim K} {e e' : Ekf K} {id : Nat} {s : ImuState K} {c : Mat K} (hi : CovInv N e)
    (hu : ¬ AugType.Timed e.augType) (hnoise : ∀ i, i < 18 → e.processNoise.get i i = e.bodyProcessNoise.get i) (hw : s.WF)
    (ho : (Op.registerIMU id s c).CovOK) (hnew : e.state.imus.find? id = none)
    (hid : s.dim = 0 ∨ ∀ x ∈ e.state.imus, id < x.1 → x.2.dim = 0) (h : registerIMU N e id s c = .ok e') : ∃ σ, Twins N σ e e' := by
  have hi' : CovInv N e' := covInv_step hi (op := .registerIMU id s c) hw ho h
  rcases registerIMU_form h with ⟨hf, _⟩ | ⟨_, out, ho, hrf⟩
  · rw [hnew] at hf; cases hf
  · rw [hw] at ho
    refine twins_via (c := c) (b := s.isExtrinsic || s.isIntrinsic) (A := [(.body, 18)] ++ mapNames ImuState.entries e.state.imus)
      (M := (s.entries id).map Entry.name) (B := mapNames GpsState.entries e.state.gpss ++ mapNames CamState.entries e.state.cams
        ++ mapNames FidState.entries e.state.fids ++ mapNames (fun k w => augEntriesFrom k w 0) e.state.augs)
      hrf hi hi' hu hnoise ⟨rfl, rfl, rfl, rfl, rfl, rfl⟩ ?_ ?_ ?_ ?_ rfl (imu_nameSize id s) ?_ rfl
      (find_insert_keep hnew) (fun _ _ x => x) (fun _ _ x => x) (fun _ _ x => x) (fun _ _ x => x)
    · exact fun hb => by unfold ImuState.dim; simp at hb; simp [hb.1, hb.2]
    · simp only [nameSize_append]; simp [nameSize]
    · rw [State.names_eq]; simp
    · rw [State.names_eq]
      dsimp only
      rw [mapNames_insert_end imu_nameSize imu_pos hi.inv.sorted.imus hnew hid]; simp
    · rw [nameSize_append, nameSize_mapNames imu_nameSize]
      rw [hi.inv.imu] at ho
      exact ho

/-- A further camera. -/
theorem twins_camera {N : Prim K} {e e' : Ekf K} {id : Nat} {s : CamState K} {c : Mat K} (hi : CovInv N e)
    (hu : ¬ AugType.Timed e.augType) (hnoise : ∀ i, i < 18 → e.processNoise.get i i = e.bodyProcessNoise.get i) (hw : s.WF)
    (ho : (Op.registerCamera id s c).CovOK) (hnew : e.state.cams.find? id = none)
    (hid : s.dim = 0 ∨ ∀ x ∈ e.state.cams, id < x.1 → x.2.dim = 0) (h : registerCamera N e id s c = .ok e') : ∃ σ, Twins N σ e e' := by
  have hi' : CovInv N e' := covInv_step hi (op := .registerCamera id s c) hw ho h
  rcases registerCamera_form h with ⟨hf, _⟩ | ⟨_, _, out, ho, hrf⟩
  · rw [hnew] at hf; cases hf
  · rw [hw] at ho
    refine twins_via (c := c) (b := s.isExtrinsic) (A := [(.body, 18)] ++ mapNames ImuState.entries e.state.imus ++ mapNames GpsState.entries e.state.gpss
        ++ mapNames CamState.entries e.state.cams)
      (M := (s.entries id).map Entry.name) (B := mapNames FidState.entries e.state.fids
        ++ mapNames (fun k w => augEntriesFrom k w 0) e.state.augs)
      hrf hi hi' hu hnoise ⟨rfl, rfl, rfl, rfl, rfl, rfl⟩ ?_ ?_ ?_ ?_ rfl (cam_nameSize id s) ?_ rfl
      (fun _ _ x => x) (fun _ _ x => x) (find_insert_keep hnew) (fun _ _ x => x) (fun _ _ x => x)
    · exact fun hb => by unfold CamState.dim; simp [hb]
    · simp only [nameSize_append]; simp [nameSize]; omega
    · rw [State.names_eq]; simp
    · rw [State.names_eq]
      dsimp only
      rw [mapNames_insert_end cam_nameSize cam_pos hi.inv.sorted.cams hnew hid]; simp
    · rw [nameSize_append, nameSize_append, nameSize_append, nameSize_mapNames imu_nameSize, nameSize_mapNames gps_nameSize,
        nameSize_mapNames cam_nameSize]
      rw [hi.inv.imu, hi.inv.gps, hi.inv.cam] at ho
      exact ho

/-! ## Messages of a GPS antenna -/

theorem gpsJacobian_get {N : Num K} {u : GpsUpdater K} {e : Ekf K} {J : Mat K} (h : u.jacobianOf N e = .ok J) (h12 : u.isExtrinsic = true → 12 ≤ (u.gpsOf e).index) (a b : Nat) :
    J.rows = 3 ∧ J.get a b = if a < 3 then
      (if b < 3 then (M3.toMat (1 : M3 K)).get a b
       else if 9 ≤ b ∧ b < 12 then (M3.toMat (-e.state.body.ang.toMat * skew u.posAInB * N.quatJac e.state.body.ang)).get a (b - 9)
       else if u.isExtrinsic = true ∧ (u.gpsOf e).index ≤ b ∧ b < (u.gpsOf e).index + 3 then (M3.toMat e.state.body.ang.toMat).get a (b - (u.gpsOf e).index)
       else 0) else 0 := by
  unfold GpsUpdater.jacobianOf at h
  simp only [bind_ok_iff] at h
  obtain ⟨j1, h1, j2, h2, h⟩ := h
  obtain ⟨_, _, rfl⟩ := Mat.setBlock_ok_iff.1 h1
  obtain ⟨_, _, rfl⟩ := Mat.setBlock_ok_iff.1 h2
  cases hu : u.isExtrinsic with
  | true =>
    have h12 := h12 hu
    rw [hu, if_pos rfl] at h
    obtain ⟨_, _, rfl⟩ := Mat.setBlock_ok_iff.1 h
    refine ⟨rfl, ?_⟩
    dsimp only [Mat.zero]
    simp only [Nat.sub_zero, Nat.zero_le, true_and, Nat.zero_add]
    by_cases ha : a < 3 <;> simp only [ha, true_and, false_and, if_true, if_false]
    by_cases c1 : b < 3
    · rw [if_neg (by omega), if_neg (by omega), if_pos c1, if_pos c1]
    · by_cases c2 : 9 ≤ b ∧ b < 12
      · rw [if_neg (by omega), if_pos c2, if_neg c1, if_pos c2]
      · simp only [if_neg c1, if_neg c2]
  | false =>
    rw [hu] at h
    simp only [Bool.false_eq_true, if_false, pure_res, Except.ok.injEq] at h
    subst h
    refine ⟨rfl, ?_⟩
    dsimp only [Mat.zero]
    simp only [Nat.sub_zero, Nat.zero_le, true_and, Nat.zero_add, Bool.false_eq_true, false_and, if_false]
    by_cases ha : a < 3 <;> simp only [ha, true_and, false_and, if_true, if_false]
    by_cases c1 : b < 3
    · rw [if_neg (by omega), if_pos c1, if_pos c1]
    · by_cases c2 : 9 ≤ b ∧ b < 12
      · rw [if_pos c2, if_neg c1, if_pos c2]
      · simp only [if_neg c1, if_neg c2]

/-- The Jacobian of an antenna both filters have. -/
theorem gpsJacobian_spread {N : Num K} {u : GpsUpdater K} {e f : Ekf K} {J J' : Mat K} {σ : Nat → Nat} {g : GpsState K} (hl : Laid e.state e.stateSize)
    (hl' : Laid f.state f.stateSize)
    (h : e.state.Inside σ f.state) (hσ : Renumbering σ e.stateSize f.stateSize) (hg : e.state.gpss.find? u.id = some g)
    (hx : u.isExtrinsic = true → g.isExtrinsic = true) (he : u.jacobianOf N e = .ok J) (hf : u.jacobianOf N f = .ok J') :
    J.Spread σ e.stateSize J' := by
  obtain ⟨g', hg', h1, h2⟩ := h.gpss _ _ hg
  have eg : u.gpsOf e = g := by simp [GpsUpdater.gpsOf, UMap.getD, hg]
  have eg' : u.gpsOf f = g' := by simp [GpsUpdater.gpsOf, UMap.getD, hg']
  have hx' : u.isExtrinsic = true → g'.isExtrinsic = true := fun hu => by rw [h1]; exact hx hu
  have b1 : u.isExtrinsic = true → 18 ≤ g.index ∧ g.index + 3 ≤ e.stateSize := fun hu => gps_columns hl.tiles hg (hx hu)
  have b2 : u.isExtrinsic = true → 18 ≤ g'.index ∧ g'.index + 3 ≤ f.stateSize := fun hu => gps_columns hl'.tiles hg' (hx' hu)
  have l18 : 18 ≤ e.stateSize := by
    obtain ⟨_, _, _, _, t1, t2, t3, t4, t5, _⟩ := State.tiles_kinds hl.tiles
    exact t1.le'.trans (t2.le'.trans (t3.le'.trans (t4.le'.trans t5.le')))
  have ge := gpsJacobian_get he (fun hu => by rw [eg]; have := b1 hu; omega)
  have gf := gpsJacobian_get hf (fun hu => by rw [eg']; have := b2 hu; omega)
  rw [eg] at ge
  rw [eg', h.body] at gf
  refine ⟨by rw [(ge 0 0).1, (gf 0 0).1], fun a i hi => ?_, fun a k hk => ?_⟩
  · rw [(ge a i).2, (gf a (σ i)).2]
    by_cases ha : a < 3
    swap; · rw [if_neg ha, if_neg ha]
    rw [if_pos ha, if_pos ha]
    by_cases h18 : i < 18
    · rw [hσ.body i h18]
      by_cases c1 : i < 3
      · rw [if_pos c1, if_pos c1]
      · by_cases c2 : 9 ≤ i ∧ i < 12
        · rw [if_neg c1, if_neg c1, if_pos c2, if_pos c2]
        · rw [if_neg c1, if_neg c1, if_neg c2, if_neg c2, if_neg (fun x => by have := b2 x.1; omega), if_neg (fun x => by have := b1 x.1; omega)]
    · have hs := hσ.ge l18 hi (by omega)
      rw [if_neg (show ¬ σ i < 3 by omega), if_neg (show ¬ (9 ≤ σ i ∧ σ i < 12) by omega), if_neg (show ¬ i < 3 by omega),
        if_neg (show ¬ (9 ≤ i ∧ i < 12) by omega)]
      by_cases hu : u.isExtrinsic = true
      swap; · rw [if_neg (fun x => hu x.1), if_neg (fun x => hu x.1)]
      have hm := h2 (hx hu)
      have hb1 := b1 hu
      by_cases hr : g.index ≤ i ∧ i < g.index + 3
      · obtain ⟨q, rfl⟩ := Nat.exists_eq_add_of_le hr.1
        rw [hm q (by omega), if_pos ⟨hu, by omega⟩, if_pos ⟨hu, by omega⟩, Nat.add_sub_cancel_left, Nat.add_sub_cancel_left]
      · rw [if_neg (show ¬ (u.isExtrinsic = true ∧ g.index ≤ i ∧ i < g.index + 3) from fun x => hr x.2), if_neg]
        rintro ⟨_, hr'⟩
        obtain ⟨q, hq⟩ := Nat.exists_eq_add_of_le hr'.1
        have hq3 : q < 3 := by omega
        rw [← hm q hq3] at hq
        have := hσ.inj i (g.index + q) hi (by omega) hq
        omega
  · rw [(gf a k).2]
    split
    swap; · rfl
    have h18 : ¬ k < 18 := fun hlt => hk k (by omega) (hσ.body k hlt)
    rw [if_neg (by omega), if_neg (by omega), if_neg]
    rintro ⟨hu, hr⟩
    obtain ⟨q, rfl⟩ := Nat.exists_eq_add_of_le hr.1
    have := b1 hu
    exact hk (g.index + q) (by omega) (h2 (hx hu) q (by omega))

theorem gps_same_refresh {u : GpsUpdater K} {e f : Ekf K} {σ : Nat → Nat} {g : GpsState K} (h : e.state.Inside σ f.state)
    (hg : e.state.gpss.find? u.id = some g) (hu : f.useFirstEstimate = e.useFirstEstimate) : u.refresh f = u.refresh e := by
  obtain ⟨g', hg', h1, h2⟩ := h.gpss _ _ hg
  have eg : u.gpsOf e = g := by simp [GpsUpdater.gpsOf, UMap.getD, hg]
  have eg' : u.gpsOf f = g' := by simp [GpsUpdater.gpsOf, UMap.getD, hg']
  unfold GpsUpdater.refresh
  rw [eg, eg', hu, h1]

theorem getGpsState_known {e : Ekf K} {id : Nat} {g : GpsState K} (h : e.state.gpss.find? id = some g) : (e.getGpsState id).2 = e := by
  unfold getGpsState
  rw [UMap.touch_found h]

theorem Twins.frame_predict {N : Prim K} {σ : Nat → Nat} {e f e' f' : Ekf K} {t : K} (h : Twins N σ e f) (hs : Frame e f) (he : Ekf.predict N e t = .ok e')
    (hf : Ekf.predict N f t = .ok f') : Frame e' f' ∧ (∀ k g, e.state.gpss.find? k = some g → e'.state.gpss.find? k = some g) ∧
      e'.isLlaInitialized = e.isLlaInitialized ∧ e'.timeInitialized = e.timeInitialized := by
  obtain ⟨t1, rfl⟩ | ⟨t1, b, out, hb, he⟩ := predict_form he
  · obtain ⟨t2, rfl⟩ | ⟨t2, _⟩ := predict_form hf
    · exact ⟨hs, fun _ _ x => x, rfl, rfl⟩
    · exact absurd t2 (not_le.2 (h.time ▸ t1))
  · obtain ⟨t2, rfl⟩ | ⟨t2, b', out', hb', hf⟩ := predict_form hf
    · exact absurd t1 (not_le.2 (h.time ▸ t2))
    · obtain ⟨_, rfl⟩ | ⟨h0, _⟩ := augmentTimed_form he
      swap; · exact absurd h0 h.untimed.1
      obtain ⟨_, rfl⟩ | ⟨h0, _⟩ := augmentTimed_form hf
      swap; · exact absurd h0 h.untimed.2
      exact ⟨⟨rfl, hs.referenceTime, hs.timeInitialized, hs.gravity, hs.lla, hs.posEInG, hs.angLToE, hs.gpsTimeVec, hs.gpsEcefVec, hs.gpsXyzVec,
        hs.useRoot, hs.augType, hs.augDeltaTime, hs.zeroAcc, hs.maxTrackLength, hs.bodyNoise, hs.gpsInitType, hs.gpsInitPosThresh,
        hs.gpsInitAngThresh, hs.gpsInitBaselineDist, hs.useFirstEstimate, hs.motionChi, hs.imuNoiseScale⟩, fun _ _ x => x, rfl, rfl⟩

theorem twins_gps_message {N : Num K} (hN : N.toPrim.Lawful) {G : GpsNum K} {σ : Nat → Nat} {u : GpsUpdater K} {e f : Ekf K} {time : K} {lla : V3 K}
    {cov : Mat K} {r r' : GpsUpdater K × Ekf K} (h : Twins N.toPrim σ e f) (hs : Frame e f) (ht : e.timeInitialized = true)
    (hl : e.isLlaInitialized = true) {g : GpsState K} (hg : e.state.gpss.find? u.id = some g) (hx : u.isExtrinsic = true → g.isExtrinsic = true)
    (hR : cov.IsCov) (iR : ∃ Ri, AreInverse 3 cov.get Ri) (he : u.update N G e time lla cov = .ok r) (hf : u.update N G f time lla cov = .ok r') :
    r'.1 = r.1 ∧ Twins N.toPrim σ r.2 r'.2 ∧ Frame r.2 r'.2 ∧ r.2.timeInitialized = true ∧ r.2.isLlaInitialized = true ∧
      r.1.id = u.id ∧ r.1.isExtrinsic = u.isExtrinsic ∧
      ∃ g', r.2.state.gpss.find? u.id = some g' ∧ g'.isExtrinsic = g.isExtrinsic := by
  obtain ⟨e1, p1, q⟩ := GpsUpdater.update_form he
  obtain ⟨f1, p2, q'⟩ := GpsUpdater.update_form hf
  have c1 : e.calculateLocalTime time = (time - e.referenceTime, e) := by unfold calculateLocalTime; rw [if_pos ht]
  have c2 : f.calculateLocalTime time = (time - e.referenceTime, f) := by
    unfold calculateLocalTime; rw [if_pos (hs.timeInitialized.trans ht), hs.referenceTime]
  rw [c1] at p1
  rw [c2] at p2
  obtain ⟨hs1, hg1, hl1, ht1⟩ := h.frame_predict hs p1 p2
  have h1 := h.predict p1 p2
  have hge := hg1 _ _ hg
  obtain ⟨g', hg', e1', _⟩ := h1.inside.state.gpss _ _ hge
  obtain ⟨hl2, _⟩ | ⟨_, e2, enu, jac, rfl, a1, a2, a3, a4⟩ := q
  · rw [hl1, hl] at hl2; cases hl2
  obtain ⟨hl2, _⟩ | ⟨_, f2, enu', jac', rfl, b1, b2, b3, b4⟩ := q'
  · rw [hs1.lla, hl1, hl] at hl2; cases hl2
  rw [getGpsState_known hge] at a1 a2 a3 a4
  rw [getGpsState_known hg'] at b1 b2 b3 b4
  have hu : r'.1 = r.1 := by rw [a2, b2]; exact gps_same_refresh h1.inside.state hge hs1.useFirstEstimate
  have hid : r.1.id = u.id ∧ r.1.isExtrinsic = u.isExtrinsic := by rw [a2]; unfold GpsUpdater.refresh; split <;> exact ⟨rfl, rfl⟩
  rw [hu] at b3 b4
  rw [hs1.posEInG, a1] at b1
  obtain rfl := Except.ok.inj b1
  rw [hs1.angLToE, h1.inside.state.body] at b4
  have sp := gpsJacobian_spread h1.left.inv.laid h1.right.inv.laid h1.inside.state h1.number (u := r.1) (by rw [hid.1]; exact hge) (by rw [hid.2]; exact hx) a3 b3
  have hrows : jac.rows = 3 := (gpsJacobian_get a3 (fun hu => by
    have : r.1.gpsOf e1 = g := by simp [GpsUpdater.gpsOf, UMap.getD, hid.1, hge]
    rw [this]; have := gps_columns h1.left.inv.laid.tiles hge (hx (hid.2 ▸ hu)); omega) 0 0).1
  have tw := h1.measure hN hR (by rw [hrows]; exact iR) sp a4 b4
  refine ⟨hu, tw, ?_, ?_, ?_, hid.1, hid.2, ?_⟩
  · obtain ⟨_, _, x1⟩ := kalman_rest a4
    obtain ⟨_, _, x2⟩ := kalman_rest b4
    rw [x1, x2]
    exact ⟨hs1.1, hs1.2, hs1.3, hs1.4, hs1.5, hs1.6, hs1.7, hs1.8, hs1.9, hs1.10, hs1.11, hs1.12, hs1.13, hs1.14, hs1.15, hs1.16, hs1.17,
      hs1.18, hs1.19, hs1.20, hs1.21, hs1.22, hs1.23⟩
  · obtain ⟨_, _, x1⟩ := kalman_rest a4
    rw [x1]; exact ht1.trans ht
  · obtain ⟨_, _, x1⟩ := kalman_rest a4
    rw [x1]; exact hl1.trans hl
  · obtain ⟨s, c, v, x1, x2, x3⟩ := kalmanUpdate_form' a4
    rw [State.addVec_moved N.toPrim v _ e1.stateSize h1.left.inv.laid.tiles (by rw [x3, h1.left.inv.covRows])] at x2
    obtain rfl := Except.ok.inj x2
    refine ⟨g.moved v, ?_, rfl⟩
    rw [x1]
    show (UMap.mapVal (GpsState.moved v) e1.state.gpss).find? u.id = _
    rw [UMap.find?_mapVal, hge]; rfl

theorem twins_fixes {N : Num K} (hN : N.toPrim.Lawful) {G : GpsNum K} {σ : Nat → Nat} (ms : List (Fix K)) :
    ∀ {u : GpsUpdater K} {e f : Ekf K} {r r' : GpsUpdater K × Ekf K} {g : GpsState K}, Twins N.toPrim σ e f → Frame e f → e.timeInitialized = true →
      e.isLlaInitialized = true → e.state.gpss.find? u.id = some g → (u.isExtrinsic = true → g.isExtrinsic = true) →
      (∀ m ∈ ms, m.cov.IsCov ∧ ∃ Ri, AreInverse 3 m.cov.get Ri) → u.fixes N G e ms = .ok r → u.fixes N G f ms = .ok r' →
      r'.1 = r.1 ∧ Twins N.toPrim σ r.2 r'.2 := by
  induction ms with
  | nil => intro u e f r r' g h _ _ _ _ _ _ he hf; cases he; cases hf; exact ⟨rfl, h⟩
  | cons m ms ih =>
    intro u e f r r' g h hs ht hl hg hx hm he hf
    simp only [GpsUpdater.fixes, bind_ok_iff] at he hf
    obtain ⟨r1, he1, he⟩ := he
    obtain ⟨r2, hf1, hf⟩ := hf
    obtain ⟨q1, q2, q3, q4, q5, q6, q7, g', q8, q9⟩ := twins_gps_message hN h hs ht hl hg hx (hm m (List.mem_cons_self ..)).1
      (hm m (List.mem_cons_self ..)).2 he1 hf1
    rw [q1] at hf
    exact ih q2 q3 q4 q5 (by rw [q6]; exact q8) (by rw [q7, q9]; exact hx) (fun x hx => hm x (List.mem_cons_of_mem _ hx)) he hf

/-! ## The claim -/

theorem twins_fid {N : Prim K} {e e' : Ekf K} {s : FidState K} {c : Mat K} (hi : CovInv N e)
    (hu : ¬ AugType.Timed e.augType) (hnoise : ∀ i, i < 18 → e.processNoise.get i i = e.bodyProcessNoise.get i) (hw : s.WF)
    (ho : (Op.registerFiducial s c).CovOK) (hnew : e.state.fids.find? s.id = none)
    (hid : s.dim = 0 ∨ ((∀ x ∈ e.state.fids, s.id < x.1 → x.2.dim = 0) ∧ ∀ k, e.window k = []))
    (h : registerFiducial N e s c = .ok e') : ∃ σ, Twins N σ e e' := by
  have hi' : CovInv N e' := covInv_step hi (op := .registerFiducial s c) hw ho h
  rcases registerFiducial_form h with ⟨hf, _⟩ | ⟨_, out, ho, hrf⟩
  · rw [hnew] at hf; cases hf
  · rw [hw] at ho
    have hid' : s.dim = 0 ∨ ∀ x ∈ e.state.fids, s.id < x.1 → x.2.dim = 0 := hid.imp id And.left
    have hB : mapNames (fun k w => augEntriesFrom k w 0) e.state.augs = [] ∨ (s.entries s.id).map Entry.name = [] := by
      rcases hid with h0 | ⟨_, h0⟩
      · exact .inr (names_nil_of_size (by rw [fid_nameSize]; exact h0) (fid_pos _ _))
      · left
        rw [mapNames, List.map_eq_nil_iff, List.eq_nil_iff_forall_not_mem]
        intro x hx
        obtain ⟨k, w, h1, h2⟩ := mem_mapEntries.1 hx
        have := h0 k
        unfold window UMap.getD at this
        rw [(UMap.find?_eq_some_iff hi.inv.sorted.augs).2 h1] at this
        simp only [Option.getD_some] at this
        subst this
        cases h2
    refine twins_via (c := c) (b := s.isExtrinsic) (A := e.state.names) (M := (s.entries s.id).map Entry.name) (B := [])
      hrf hi hi' hu hnoise ⟨rfl, rfl, rfl, rfl, rfl, rfl⟩ ?_ ?_ ?_ ?_ rfl (fid_nameSize s.id s) ?_ rfl
      (fun _ _ x => x) (fun _ _ x => x) (fun _ _ x => x) (find_insert_keep hnew) (fun _ _ x => x)
    · exact fun hb => by unfold FidState.dim; simp [hb]
    · rw [State.nameSize_names]; unfold State.dim; omega
    · simp
    · rw [State.names_eq, State.names_eq]
      dsimp only
      rw [mapNames_insert_end fid_nameSize fid_pos hi.inv.sorted.fids hnew hid']
      rcases hB with hB | hB <;> rw [hB] <;> simp
    · rw [State.nameSize_names, ← hi.inv.size]
      exact ho

theorem twins_further {N : Prim K} {e f : Ekf K} {op : Op K} (hi : CovInv N e) (hu : ¬ AugType.Timed e.augType)
    (hnoise : ∀ i, i < 18 → e.processNoise.get i i = e.bodyProcessNoise.get i) (hw : op.WF) (ho : op.CovOK) (hn : op.Further e)
    (h : step N e op = .ok f) : (∃ σ, Twins N σ e f) ∧ Frame e f := by
  cases op with
  | registerIMU id s c =>
    refine ⟨twins_imu hi hu hnoise hw ho hn.1 hn.2 h, ?_⟩
    rcases registerIMU_form h with ⟨hf, _⟩ | ⟨_, out, ho, hrf⟩
    · rw [hn.1] at hf; cases hf
    · refine Frame.trans ?_ (frame2_refresh hrf).toFrame
      exact ⟨rfl, rfl, rfl, rfl, rfl, rfl, rfl, rfl, rfl, rfl, rfl, rfl, rfl, rfl, rfl, rfl, rfl, rfl, rfl, rfl, rfl, rfl, rfl⟩
  | registerGPS id s c =>
    refine ⟨twins_gps hi hu hnoise hw ho hn.1 hn.2 h, ?_⟩
    rcases registerGPS_form h with ⟨hf, _⟩ | ⟨_, out, ho, hrf⟩
    · rw [hn.1] at hf; cases hf
    · refine Frame.trans ?_ (frame2_refresh hrf).toFrame
      exact ⟨rfl, rfl, rfl, rfl, rfl, rfl, rfl, rfl, rfl, rfl, rfl, rfl, rfl, rfl, rfl, rfl, rfl, rfl, rfl, rfl, rfl, rfl, rfl⟩
  | registerCamera id s c =>
    refine ⟨twins_camera hi hu hnoise hw ho hn.1 hn.2 h, ?_⟩
    rcases registerCamera_form h with ⟨hf, _⟩ | ⟨_, _, out, ho, hrf⟩
    · rw [hn.1] at hf; cases hf
    · refine Frame.trans ?_ (frame2_refresh hrf).toFrame
      exact ⟨rfl, rfl, rfl, rfl, rfl, rfl, rfl, rfl, rfl, rfl, rfl, rfl, rfl, rfl, rfl, rfl, rfl, rfl, rfl, rfl, rfl, rfl, rfl⟩
  | registerFiducial s c =>
    refine ⟨twins_fid hi hu hnoise hw ho hn.1 hn.2 h, ?_⟩
    rcases registerFiducial_form h with ⟨hf, _⟩ | ⟨_, out, ho, hrf⟩
    · rw [hn.1] at hf; cases hf
    · refine Frame.trans ?_ (frame2_refresh hrf).toFrame
      exact ⟨rfl, rfl, rfl, rfl, rfl, rfl, rfl, rfl, rfl, rfl, rfl, rfl, rfl, rfl, rfl, rfl, rfl, rfl, rfl, rfl, rfl, rfl, rfl⟩
  | _ => exact hn.elim

/-- A sensor is registered behind the others of its kind.  Whatever the filter then predicts and measures, asking for nothing of
that sensor, it estimates what it would have estimated without the sensor, with the same variances and covariances. -/
theorem C92_history_partial (N : Prim K) (hN : N.Lawful) (p : EkfParams K) (hp : p.useRoot = false)
    (hq : ∀ k, k < 18 → 0 ≤ p.processNoise.get k) (before : List (Op K)) (hw : ∀ op ∈ before, op.WF) (ho : ∀ op ∈ before, op.CovOK)
    (e f : Ekf K) (he : run N (init N p) before = .ok e) (hu : ¬ AugType.Timed e.augType)
    (hnoise : ∀ i, i < 18 → e.processNoise.get i i = e.bodyProcessNoise.get i)
    (op : Op K) (hop : op.WF) (hoc : op.CovOK) (hn : op.Further e) (hf : step N e op = .ok f) :
    ∃ σ, Renumbering σ e.stateSize f.stateSize ∧ e.Inside σ f ∧
      ∀ (ops : List (Paired K)) (e' f' : Ekf K), (∀ o ∈ ops, o.OK σ e.stateSize) → run N e (ops.map Paired.small) = .ok e' →
        run N f (ops.map Paired.large) = .ok f' → e'.Inside σ f' := by
  obtain ⟨σ, hσ⟩ := (twins_further (covInv_run (covInv_init N p hp hq) hw ho he) hu hnoise hop hoc hn hf).1
  exact ⟨σ, hσ.number, hσ.inside, fun ops e' f' h h1 h2 => (twins_run hN ops hσ rfl h h1 h2).inside⟩

/-- The width of the Jacobian for the large filter. -/
def Paired.Fits (n' : Nat) : Paired K → Prop
  | .predict _ => True
  | .measure _ H' _ _ => H'.cols = n'

theorem twins_defined {N : Prim K} (hN : N.Lawful) {σ : Nat → Nat} {n n' : Nat} (ops : List (Paired K)) :
    ∀ {e f e' : Ekf K}, Twins N σ e f → e.stateSize = n → f.stateSize = n' → f.bodyProcessNoise.size = 18 → (∀ o ∈ ops, o.OK σ n ∧ o.Fits n') →
      run N e (ops.map Paired.small) = .ok e' → ∃ f', run N f (ops.map Paired.large) = .ok f' := by
  induction ops with
  | nil => intro e f e' _ _ _ _ _ _; exact ⟨f, rfl⟩
  | cons o ops ih =>
    intro e f e' h hn hn' hb ho he
    simp only [List.map_cons, run, bind_ok_iff] at he
    obtain ⟨e1, he1, he⟩ := he
    have h0 := ho o (List.mem_cons_self ..)
    have key : ∃ f1, step N f o.large = .ok f1 ∧ Twins N σ e1 f1 ∧ e1.stateSize = n ∧ f1.stateSize = n' ∧ f1.bodyProcessNoise.size = 18 := by
      cases o with
      | predict t =>
        obtain ⟨f1, hf1⟩ := predict_defined N f t h.right.inv hb (fun hx => absurd (.inl hx) h.untimed.2)
        refine ⟨f1, hf1, h.predict he1 hf1, ?_, ?_⟩
        · obtain ⟨_, hx⟩ | ⟨_, b, out, _, hx⟩ := predict_form he1
          · rw [hx]; exact hn
          · obtain ⟨_, hx⟩ | ⟨h0, _⟩ := augmentTimed_form hx
            · rw [hx]; exact hn
            · exact absurd h0 h.untimed.1
        · obtain ⟨_, hx⟩ | ⟨_, b, out, _, hx⟩ := predict_form hf1
          · rw [hx]; exact ⟨hn', hb⟩
          · obtain ⟨_, hx⟩ | ⟨h0, _⟩ := augmentTimed_form hx
            · rw [hx]; exact ⟨hn', hb⟩
            · exact absurd h0 h.untimed.2
      | measure H H' r R =>
        obtain ⟨⟨_, _, hRr, hRc, hrs⟩, _⟩ := kalman_std h.left.root he1
        have hr : H'.rows = H.rows := h0.1.2.2.rows
        obtain ⟨f1, hf1⟩ := kalman_defined N f H' r R h.right.inv (h0.2.trans hn'.symm) (hRr.trans hr.symm) (hRc.trans hr.symm) (hrs.trans hr.symm)
        refine ⟨f1, hf1, h.measure hN h0.1.1 h0.1.2.1 (hn ▸ h0.1.2.2) he1 hf1, ?_, ?_⟩
        · obtain ⟨_, _, hx⟩ := kalman_rest he1
          rw [hx]; exact hn
        · obtain ⟨_, _, hx⟩ := kalman_rest hf1
          rw [hx]; exact ⟨hn', hb⟩
    obtain ⟨f1, hf1, k1, k2, k3, k4⟩ := key
    obtain ⟨f', hf'⟩ := ih k1 k2 k3 k4 (fun o' h' => ho o' (List.mem_cons_of_mem _ h')) he
    exact ⟨f', by simp only [List.map_cons, run, hf1, ok_bind, hf']⟩

/-- What the filter can do without the sensor it can do with it: as before, and the larger filter runs into no error if the smaller
one does not. -/
theorem C92_runs_partial (N : Prim K) (hN : N.Lawful) (p : EkfParams K) (hp : p.useRoot = false)
    (hq : ∀ k, k < 18 → 0 ≤ p.processNoise.get k) (before : List (Op K)) (hw : ∀ op ∈ before, op.WF) (ho : ∀ op ∈ before, op.CovOK)
    (e f : Ekf K) (he : run N (init N p) before = .ok e) (hu : ¬ AugType.Timed e.augType) (hs : e.bodyProcessNoise.size = 18)
    (hnoise : ∀ i, i < 18 → e.processNoise.get i i = e.bodyProcessNoise.get i)
    (op : Op K) (hop : op.WF) (hoc : op.CovOK) (hn : op.Further e) (hf : step N e op = .ok f) :
    ∃ σ, Renumbering σ e.stateSize f.stateSize ∧ e.Inside σ f ∧
      ∀ (ops : List (Paired K)) (e' : Ekf K), (∀ o ∈ ops, o.OK σ e.stateSize ∧ o.Fits f.stateSize) →
        run N e (ops.map Paired.small) = .ok e' → ∃ f', run N f (ops.map Paired.large) = .ok f' ∧ e'.Inside σ f' := by
  obtain ⟨⟨σ, hσ⟩, fr⟩ := twins_further (covInv_run (covInv_init N p hp hq) hw ho he) hu hnoise hop hoc hn hf
  refine ⟨σ, hσ.number, hσ.inside, fun ops e' h h1 => ?_⟩
  obtain ⟨f', h2⟩ := twins_defined hN ops hσ rfl rfl (by rw [fr.bodyNoise]; exact hs) h h1
  exact ⟨f', h2, (twins_run hN ops hσ rfl (fun o ho => (h o ho).1) h1 h2).inside⟩

/-- The same for the messages of a GPS antenna after the reference is set: neither the updater nor the filter notices the
sensor that was registered. -/
theorem C92_fixes_partial (N : Num K) (hN : N.toPrim.Lawful) (G : GpsNum K) (p : EkfParams K) (hp : p.useRoot = false)
    (hq : ∀ k, k < 18 → 0 ≤ p.processNoise.get k) (before : List (Op K)) (hw : ∀ op ∈ before, op.WF) (ho : ∀ op ∈ before, op.CovOK)
    (e f : Ekf K) (he : run N.toPrim (init N.toPrim p) before = .ok e) (hu : ¬ AugType.Timed e.augType)
    (hnoise : ∀ i, i < 18 → e.processNoise.get i i = e.bodyProcessNoise.get i) (ht : e.timeInitialized = true) (hl : e.isLlaInitialized = true)
    (u : GpsUpdater K) (g : GpsState K) (hg : e.state.gpss.find? u.id = some g) (hx : u.isExtrinsic = true → g.isExtrinsic = true)
    (op : Op K) (hop : op.WF) (hoc : op.CovOK) (hn : op.Further e) (hf : step N.toPrim e op = .ok f) (ms : List (Fix K))
    (hm : ∀ m ∈ ms, m.cov.IsCov ∧ ∃ Ri, AreInverse 3 m.cov.get Ri) (r r' : GpsUpdater K × Ekf K)
    (hr : u.fixes N G e ms = .ok r) (hr' : u.fixes N G f ms = .ok r') :
    r'.1 = r.1 ∧ r'.2.state.body = r.2.state.body ∧ ∃ σ, Renumbering σ e.stateSize f.stateSize ∧ r.2.Inside σ r'.2 := by
  obtain ⟨⟨σ, hσ⟩, fr⟩ := twins_further (covInv_run (covInv_init N.toPrim p hp hq) hw ho he) hu hnoise hop hoc hn hf
  obtain ⟨h1, h2⟩ := twins_fixes hN ms hσ fr ht hl hg hx hm hr hr'
  exact ⟨h1, h2.inside.state.body, σ, hσ.number, h2.inside⟩

open Samples in
/-- The calls before the readings. -/
def C92_calls (more : List (Call ℚ)) : List (Call ℚ) :=
  [.filter (.registerIMU 3 (imu false false) (cov 0))] ++ more ++ [.filter .initializeGravity, .newImu 1 3 false false]

set_option synthInstance.maxSize 2000 in
open Samples in
/-- **A silent IMU matters**: once a second IMU is registered, even one of which nothing is estimated and which never reports, the
readings of the first IMU are used differently. -/
theorem C92_imu_violated : ¬ ∀ (s1 s2 : Station ℚ) (id : Nat) (i : ImuState ℚ) (c : Mat ℚ) (t : ℚ) (a w : V3 ℚ) (ac wc : M3 ℚ), i.WF → id ≠ 3 →
    Station.run diagNum gpsNum (Station.init diagNum (params .none false)) (C92_calls [] ++ [.imu 1 t a ac w wc]) = .ok s1 →
    Station.run diagNum gpsNum (Station.init diagNum (params .none false)) (C92_calls [.filter (.registerIMU id i c)] ++ [.imu 1 t a ac w wc]) = .ok s2 →
    s2.ekf.state.body.acc = s1.ekf.state.body.acc := by
  intro h
  obtain ⟨p, hr, hp⟩ := ok_of_check (r := do
      let s1 ← Station.run diagNum gpsNum (Station.init diagNum (params .none false)) (C92_calls [] ++ [.imu 1 1 ![1000, 0, 0] 1 ![0, 0, 0] 1])
      let s2 ← Station.run diagNum gpsNum (Station.init diagNum (params .none false))
        (C92_calls [.filter (.registerIMU 5 (imu false false) (cov 0))] ++ [.imu 1 1 ![1000, 0, 0] 1 ![0, 0, 0] 1])
      pure (s1, s2))
    (P := fun p : Station ℚ × Station ℚ => p.2.ekf.state.body.acc 0 ≠ p.1.ekf.state.body.acc 0) (by decide +kernel)
  simp only [bind_ok_iff, pure_res, Except.ok.injEq] at hr
  obtain ⟨s1, h1, s2, h2, rfl⟩ := hr
  exact hp (congrFun (h s1 s2 5 (imu false false) (cov 0) 1 ![1000, 0, 0] ![0, 0, 0] 1 1 rfl (by decide) h1 h2) 0)

/-! ## A case in which the hypotheses hold -/

/-- A calibrated antenna. -/
noncomputable def C92_gps : GpsState ℝ := (GpsState.default : GpsState ℝ).setIsExtrinsic true
/-- The position along one axis, for a filter of a given size. -/
def C92_H (n : Nat) : Mat ℝ := ⟨1, n, fun _ k => if k = 0 then 1 else 0⟩
/-- A prediction, a measurement and a prediction. -/
noncomputable def C92_events : List (Paired ℝ) := [.predict 1, .measure (C92_H 21) (C92_H 24) C86_r ((Mat.identity 1 1).smul 1), .predict 2]

theorem sample_C92_spread {σ : Nat → Nat} {n n' : Nat} (hn : 18 ≤ n) (h : Renumbering σ n n') : (C92_H n).Spread σ n (C92_H n') where
  rows := rfl
  same := fun a i hi => by
    show (if σ i = 0 then (1 : ℝ) else 0) = if i = 0 then 1 else 0
    by_cases h0 : i = 0
    · rw [if_pos h0, if_pos (by rw [h0]; exact h.body 0 (by omega))]
    · rw [if_neg h0, if_neg (fun hx => h0 (h.inj i 0 hi (by omega) (hx.trans (h.body 0 (by omega)).symm)))]
  rest := fun a k hk => if_neg (fun hx => hk 0 (by omega) (by rw [hx]; exact h.body 0 (by omega)))

theorem sample_C92_step {e : Ekf ℝ} (hi : Inv e) (hp : e.bodyProcessNoise.size = 18) (ha : e.augType = .none) {n : Nat} (hn : e.stateSize = n)
    (op : Op ℝ) (ho : (∃ t, op = .predict t) ∨ op = .kalman (C92_H n) C86_r ((Mat.identity 1 1).smul 1)) :
    ∃ e', step realPrim e op = .ok e' ∧ Inv e' ∧ e'.bodyProcessNoise.size = 18 ∧ e'.augType = .none ∧ e'.stateSize = n := by
  obtain ⟨t, rfl⟩ | rfl := ho
  · obtain ⟨e', h⟩ := predict_defined realPrim e t hi hp (fun h => by rw [ha] at h; simp [AugType.Timed] at h)
    refine ⟨e', h, inv_step (N := realPrim) hi (op := .predict t) trivial h, ?_⟩
    obtain ⟨_, rfl⟩ | ⟨_, b, out, _, hx⟩ := predict_form h
    · exact ⟨hp, ha, hn⟩
    · obtain ⟨_, rfl⟩ | ⟨h0, _⟩ := augmentTimed_form hx
      · exact ⟨hp, ha, hn⟩
      · rw [show AugType.Timed _ = AugType.Timed e.augType from rfl, ha] at h0; simp [AugType.Timed] at h0
  · obtain ⟨e', h⟩ := kalman_defined realPrim e (C92_H n) C86_r ((Mat.identity 1 1).smul 1) hi hn.symm rfl rfl rfl
    refine ⟨e', h, inv_step (N := realPrim) hi (op := .kalman ..) trivial h, ?_⟩
    obtain ⟨_, _, rfl⟩ := kalman_rest h
    exact ⟨hp, ha, hn⟩

theorem sample_C92_run {n : Nat} {ops : List (Op ℝ)} : ∀ {e : Ekf ℝ}, Inv e → e.bodyProcessNoise.size = 18 → e.augType = .none → e.stateSize = n →
    (∀ op ∈ ops, (∃ t, op = .predict t) ∨ op = .kalman (C92_H n) C86_r ((Mat.identity 1 1).smul 1)) → ∃ e', run realPrim e ops = .ok e' := by
  induction ops with
  | nil => intro e _ _ _ _ _; exact ⟨e, rfl⟩
  | cons op ops ih =>
    intro e h1 h2 h3 h4 ho
    obtain ⟨e1, g1, g2, g3, g4, g5⟩ := sample_C92_step h1 h2 h3 h4 op (ho op (List.mem_cons_self ..))
    obtain ⟨e', g⟩ := ih g2 g3 g4 g5 fun x hx => ho x (List.mem_cons_of_mem _ hx)
    exact ⟨e', by simp only [run, g1, ok_bind, g]⟩

/-- A filter with one calibrated antenna and a second one registered later. -/
example : ∃ e f e' f', run realPrim (init realPrim C86_params) [.registerGPS 7 C92_gps (Mat.identity 3 3), .initializeGravity] = .ok e ∧
    ¬ AugType.Timed e.augType ∧ (∀ i, i < 18 → e.processNoise.get i i = e.bodyProcessNoise.get i) ∧
    (Op.registerGPS 9 C92_gps (Mat.identity 3 3)).WF ∧ (Op.registerGPS 9 C92_gps (Mat.identity 3 3)).CovOK ∧
    (Op.registerGPS 9 C92_gps (Mat.identity 3 3)).Further e ∧ step realPrim e (.registerGPS 9 C92_gps (Mat.identity 3 3)) = .ok f ∧
    e.bodyProcessNoise.size = 18 ∧ (∀ o ∈ C92_events, o.Fits f.stateSize) ∧
    (∀ σ, Renumbering σ e.stateSize f.stateSize → ∀ o ∈ C92_events, o.OK σ e.stateSize) ∧
    run realPrim e (C92_events.map Paired.small) = .ok e' ∧ run realPrim f (C92_events.map Paired.large) = .ok f' := by
  have hcov : (⟨3, 3, (Mat.identity 3 3 : Mat ℝ).get⟩ : Mat ℝ).IsCov := by
    refine ⟨rfl, fun i j _ _ => by simp [Mat.identity, eq_comm], fun x => ?_⟩
    have : 0 ≤ x 0 * x 0 + x 1 * x 1 + x 2 * x 2 := add_nonneg (add_nonneg (mul_self_nonneg _) (mul_self_nonneg _)) (mul_self_nonneg _)
    simpa [quad, Mat.identity, sum_range_succ] using this
  have hwf : ∀ op ∈ ([.registerGPS 7 C92_gps (Mat.identity 3 3), .initializeGravity] : List (Op ℝ)), op.WF := by
    intro op h
    simp only [List.mem_cons, List.not_mem_nil, or_false] at h
    rcases h with rfl | rfl
    · rfl
    · trivial
  obtain ⟨e, f, he, hf, e1, e2, e3, e4, f1, f2, f3, e5⟩ : ∃ e f, run realPrim (init realPrim C86_params)
      [.registerGPS 7 C92_gps (Mat.identity 3 3), .initializeGravity] = .ok e ∧ step realPrim e (.registerGPS 9 C92_gps (Mat.identity 3 3)) = .ok f ∧
      e.stateSize = 21 ∧ e.augType = .none ∧ e.bodyProcessNoise.size = 18 ∧ (∀ i, i < 18 → e.processNoise.get i i = e.bodyProcessNoise.get i) ∧
      f.stateSize = 24 ∧ f.augType = .none ∧ f.bodyProcessNoise.size = 18 ∧ e.state.gpss.map Prod.fst = [7] :=
    ⟨_, _, rfl, rfl, rfl, rfl, rfl, fun i hi => by interval_cases i <;> rfl, rfl, rfl, rfl, rfl⟩
  have hie : Inv e := inv_run (inv_init realPrim C86_params) hwf he
  have hif : Inv f := inv_step hie (op := .registerGPS 9 C92_gps (Mat.identity 3 3)) rfl hf
  obtain ⟨e', h1⟩ := sample_C92_run (n := 21) (ops := C92_events.map Paired.small) hie e3 e2 e1 (by
    intro op ho
    simp only [C92_events, List.map_cons, List.map_nil, Paired.small, List.mem_cons, List.not_mem_nil, or_false] at ho
    rcases ho with rfl | rfl | rfl
    · exact .inl ⟨_, rfl⟩
    · exact .inr rfl
    · exact .inl ⟨_, rfl⟩)
  obtain ⟨f', h2⟩ := sample_C92_run (n := 24) (ops := C92_events.map Paired.large) hif f3 f2 f1 (by
    intro op ho
    simp only [C92_events, List.map_cons, List.map_nil, Paired.large, List.mem_cons, List.not_mem_nil, or_false] at ho
    rcases ho with rfl | rfl | rfl
    · exact .inl ⟨_, rfl⟩
    · exact .inr rfl
    · exact .inl ⟨_, rfl⟩)
  refine ⟨e, f, e', f', he, by rw [e2]; simp [AugType.Timed], e4, rfl, ⟨hcov, ?_⟩, ⟨?_, .inr ?_⟩, hf, e3, ?_, ?_, h1, h2⟩
  · intro x hx
    simp [GpsState.noise, C92_gps, GpsState.setIsExtrinsic, GpsState.default] at hx
    rw [hx]; simp
  · cases hc : e.state.gpss.find? 9 with
    | none => rfl
    | some v =>
      have : 9 ∈ e.state.gpss.map Prod.fst := List.mem_map.2 ⟨(9, v), UMap.mem_of_find? hc, rfl⟩
      rw [e5] at this; simp at this
  · intro x hx h9
    have : x.1 ∈ e.state.gpss.map Prod.fst := List.mem_map.2 ⟨x, hx, rfl⟩
    rw [e5] at this
    simp at this; omega
  · intro o ho
    rw [f1]
    simp only [C92_events, List.mem_cons, List.not_mem_nil, or_false] at ho
    rcases ho with rfl | rfl | rfl <;> trivial
  · intro σ hσ o ho
    rw [e1, f1] at hσ
    rw [e1]
    simp only [C92_events, List.mem_cons, List.not_mem_nil, or_false] at ho
    rcases ho with rfl | rfl | rfl
    · trivial
    · exact ⟨(sample_C88_cov 1 one_pos).1, (sample_C88_cov 1 one_pos).2, sample_C92_spread (by omega) hσ⟩
    · trivial

end EkfCal
