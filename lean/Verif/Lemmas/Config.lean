import Verif.Spec.Config
import Verif.Lemmas.Noise
import Verif.Lemmas.CovHist
import Verif.Lemmas.RootUpdate
import Verif.Lemmas.Window
import Verif.Spec.Joint

/-!
# Lemmas: the configured body noise along a history
-/

namespace EkfCal
open Ekf
variable {K : Type} [Field K] [LinearOrder K]

theorem step_bodyNoise {N : Prim K} {e e' : Ekf K} {op : Op K} (ho : ∀ v, op ≠ .setBodyProcessNoise v)
    (h : step N e op = .ok e') : e'.bodyProcessNoise = e.bodyProcessNoise := by
  have := step_frame h
  cases op <;> simp only [StepFrame] at this <;> first | exact this.bodyNoise | exact absurd rfl (ho _) | (subst this; rfl) | skip
  · split at this
    · rw [this]
    · exact this.bodyNoise
  · subst this
    unfold calculateLocalTime
    split <;> rfl
  · obtain ⟨_, _, _, _, rfl⟩ := attemptGpsInit_form h
    rfl

theorem run_bodyNoise {N : Prim K} : ∀ {l : List (Op K)} {a b : Ekf K}, (∀ v, Op.setBodyProcessNoise v ∉ l) →
    run N a l = .ok b → b.bodyProcessNoise = a.bodyProcessNoise ∧ b.useRoot = a.useRoot
  | [], a, b, _, h => by cases h; exact ⟨rfl, rfl⟩
  | o :: l, a, b, hl, h => by
    simp only [run, bind_ok_iff] at h
    obtain ⟨c, hc, h⟩ := h
    obtain ⟨g1, g2⟩ := run_bodyNoise (fun v hv => hl v (List.mem_cons_of_mem _ hv)) h
    refine ⟨g1.trans (step_bodyNoise (fun v hv => hl v ?_) hc), g2.trans (step_useRoot hc)⟩
    rw [← hv]; exact List.mem_cons_self

/-- In both covariance modes: after a refresh, the body noise in force is the configured one. -/
theorem noise_in_force {N : Prim K} {e1 e2 e : Ekf K} (hn : NoiseInv N (fun v => v = e1.bodyProcessNoise) False e2)
    (hu2 : e2.useRoot = e1.useRoot) {ops : List (Op K)} (ho : ∀ v, Op.setBodyProcessNoise v ∉ ops)
    (h2 : run N e2 ops = .ok e) (k : Nat) (hk : k < 18) :
    e.processNoise.get k k = if e1.useRoot then N.sqrt (e1.bodyProcessNoise.get k) else e1.bodyProcessNoise.get k := by
  obtain ⟨hc, d, body, hd, hq, hb⟩ := noise_run hn
    (fun op hop => by cases op <;> first | exact (ho _ hop).elim | trivial) h2
  rw [hq, (run_bodyNoise ho h2).2, hu2]
  simp only [if_true]
  rw [hd.bodyRows k hk]
  obtain ⟨hf, _⟩ | ⟨v, rfl, hb⟩ := hb
  · exact hf.elim
  · rw [hb k hk]

theorem minBoundLoop_bounded (v : Vec K) : ∀ n, (minBoundLoop (1 / 10 ^ 6 : K) n v).size = v.size ∧
    ∀ i, (minBoundLoop (1 / 10 ^ 6 : K) n v).get i = if i < n then bounded (v.get i) else v.get i
  | 0 => ⟨rfl, fun i => by simp [minBoundLoop]⟩
  | n + 1 => by
    obtain ⟨h1, h2⟩ := minBoundLoop_bounded v n
    unfold minBoundLoop
    dsimp only
    have hn := h2 n
    rw [if_neg (by omega)] at hn
    split
    · rename_i hlt
      rw [hn] at hlt
      refine ⟨h1, fun i => ?_⟩
      dsimp only
      split
      · rename_i hi
        subst hi
        rw [if_pos (by omega), bounded, max_eq_right hlt.le]
      · rw [h2 i]
        split_ifs <;> first | rfl | omega
    · rename_i hge
      rw [hn, not_lt] at hge
      refine ⟨h1, fun i => ?_⟩
      rw [h2 i]
      by_cases hi : i = n
      · subst hi
        rw [if_neg (by omega), if_pos (by omega), bounded, max_eq_left hge]
      · split_ifs <;> first | rfl | omega

theorem minBound_size (v : Vec K) : (minBoundVector v (1 / 10 ^ 6 : K)).size = v.size := (minBoundLoop_bounded v _).1

theorem minBound_get (v : Vec K) {i : Nat} (hi : i < v.size) :
    (minBoundVector v (1 / 10 ^ 6 : K)).get i = bounded (v.get i) := by
  rw [minBoundVector, (minBoundLoop_bounded v _).2 i, if_pos hi]

theorem Registers.congr {e e' : Ekf K} {parts : List (Label × Nat × Nat)} {C D : Nat → Nat → K} {n : Nat}
    (h : e.Registers e' parts C) (hn : ∀ x ∈ parts, x.2.1 + x.2.2 ≤ n) (hC : ∀ k l, k < n → l < n → C k l = D k l) :
    e.Registers e' parts D :=
  ⟨h.keeps, fun a o p b o' q ha hb k l hk hl => by
    have h1 := hn _ ha
    have h2 := hn _ hb
    dsimp only at h1 h2
    rw [h.start a o p b o' q ha hb k l hk hl, hC _ _ (by omega) (by omega)], h.fresh⟩

theorem startCov_diag (root : Bool) (n : Nat) (v : Vec K) {k l : Nat} (hk : k < n) (hl : l < n) :
    startCov root n v.asDiagonal k l = if k = l then (if root then v.get k * v.get k else v.get k) else 0 := by
  unfold startCov
  cases root with
  | false =>
    simp only [Bool.false_eq_true, if_false]
    rfl
  | true =>
    simp only [if_true]
    rw [gram_diag _ _ rfl hk hl]
    · show (if k = l then (if k = k then v.get k else 0) * (if k = k then v.get k else 0) else 0) = _
      rw [if_pos rfl]
    · intro i j _ _ hij
      exact if_neg hij

theorem head_ok_iff {v w : Vec K} {n : Nat} : v.head n = .ok w ↔ n ≤ v.size ∧ w = ⟨n, v.get⟩ := by
  unfold Vec.head
  simp only [bind_ok_iff, guardUB_ok_iff, pure_res, Except.ok.injEq]
  exact ⟨fun ⟨_, h1, h2⟩ => ⟨h1, h2.symm⟩, fun ⟨h1, h2⟩ => ⟨(), h1, h2.symm⟩⟩

theorem stored_imu {N : Prim K} {e e' : Ekf K} {id : Nat} {s : ImuState K} {c : Mat K} (hi : Inv e)
    (hnew : e.state.imus.find? id = none) (h : registerIMU N e id s c = .ok e') :
    ∃ j, e'.state.imus.find? id = some (s.reindex j) := by
  rcases registerIMU_form h with ⟨hf, _⟩ | ⟨_, out, _, hr⟩
  · rw [hnew] at hf; cases hf
  · have hd := UMap.mapDim_insert (m := e.state.imus) ImuState.dim id s ImuState.default rfl hi.sorted.imus
    rw [show UMap.getD e.state.imus id ImuState.default = ImuState.default by simp [UMap.getD, hnew]] at hd
    have hd0 : ImuState.dim (ImuState.default : ImuState K) = 0 := rfl
    have hsz := hi.size
    rw [hd0] at hd
    obtain ⟨_, h1, _⟩ := refreshIndices_ok (by simp only [State.dim] at hsz ⊢; omega) hr
    obtain ⟨j, hj⟩ := find?_accumIdx ImuState.reindex ImuState.dim (e.state.imus.insert id s) 18 id
    exact ⟨j, by rw [h1]; exact hj.trans (by rw [UMap.find?_insert_self]; rfl)⟩

theorem stored_gps {N : Prim K} {e e' : Ekf K} {id : Nat} {s : GpsState K} {c : Mat K} (hi : Inv e)
    (hnew : e.state.gpss.find? id = none) (h : registerGPS N e id s c = .ok e') :
    ∃ j, e'.state.gpss.find? id = some (s.reindex j) := by
  rcases registerGPS_form h with ⟨hf, _⟩ | ⟨_, out, _, hr⟩
  · rw [hnew] at hf; cases hf
  · have hd := UMap.mapDim_insert (m := e.state.gpss) GpsState.dim id s GpsState.default rfl hi.sorted.gpss
    rw [show UMap.getD e.state.gpss id GpsState.default = GpsState.default by simp [UMap.getD, hnew]] at hd
    have hd0 : GpsState.dim (GpsState.default : GpsState K) = 0 := rfl
    have hsz := hi.size
    rw [hd0] at hd
    obtain ⟨_, h1, _⟩ := refreshIndices_ok (by simp only [State.dim] at hsz ⊢; omega) hr
    obtain ⟨j, hj⟩ := find?_accumIdx GpsState.reindex GpsState.dim (e.state.gpss.insert id s)
      (18 + mapDim ImuState.dim e.state.imus) id
    exact ⟨j, by rw [h1]; exact hj.trans (by rw [UMap.find?_insert_self]; rfl)⟩

theorem stored_cam {N : Prim K} {e e' : Ekf K} {id : Nat} {s : CamState K} {c : Mat K} (hi : Inv e)
    (hnew : e.state.cams.find? id = none) (h : registerCamera N e id s c = .ok e') :
    ∃ j, e'.state.cams.find? id = some (s.reindex j) := by
  rcases registerCamera_form h with ⟨hf, _⟩ | ⟨_, _, out, _, hr⟩
  · rw [hnew] at hf; cases hf
  · have hd := UMap.mapDim_insert (m := e.state.cams) CamState.dim id s CamState.default rfl hi.sorted.cams
    rw [show UMap.getD e.state.cams id CamState.default = CamState.default by simp [UMap.getD, hnew]] at hd
    have hd0 : CamState.dim (CamState.default : CamState K) = 0 := rfl
    have hsz := hi.size
    rw [hd0] at hd
    obtain ⟨_, h1, _⟩ := refreshIndices_ok (by simp only [State.dim] at hsz ⊢; omega) hr
    obtain ⟨j, hj⟩ := find?_accumIdx CamState.reindex CamState.dim (e.state.cams.insert id s)
      (18 + mapDim ImuState.dim e.state.imus + mapDim GpsState.dim e.state.gpss) id
    exact ⟨j, by rw [h1]; exact hj.trans (by rw [UMap.find?_insert_self]; rfl)⟩

theorem stored_fid {N : Prim K} {e e' : Ekf K} {s : FidState K} {c : Mat K} (hi : Inv e)
    (hnew : e.state.fids.find? s.id = none) (h : registerFiducial N e s c = .ok e') :
    ∃ j, e'.state.fids.find? s.id = some (s.reindex j) := by
  rcases registerFiducial_form h with ⟨hf, _⟩ | ⟨_, out, _, hr⟩
  · rw [hnew] at hf; cases hf
  · have hd := UMap.mapDim_insert (m := e.state.fids) FidState.dim s.id s ⟨0, 0, Quat.one, 0, 0, 0, 0, 0, false⟩ rfl hi.sorted.fids
    rw [show UMap.getD e.state.fids s.id ⟨0, 0, Quat.one, 0, 0, 0, 0, 0, false⟩ = ⟨0, 0, Quat.one, 0, 0, 0, 0, 0, false⟩ by simp [UMap.getD, hnew]] at hd
    have hd0 : FidState.dim (⟨0, 0, Quat.one, 0, 0, 0, 0, 0, false⟩ : FidState K) = 0 := rfl
    have hsz := hi.size
    rw [hd0] at hd
    obtain ⟨_, h1, _⟩ := refreshIndices_ok (by simp only [State.dim] at hsz ⊢; omega) hr
    obtain ⟨j, hj⟩ := find?_accumIdx FidState.reindex FidState.dim (e.state.fids.insert s.id s)
      (18 + mapDim ImuState.dim e.state.imus + mapDim GpsState.dim e.state.gpss + mapDim CamState.dim e.state.cams) s.id
    exact ⟨j, by rw [h1]; exact hj.trans (by rw [UMap.find?_insert_self]; rfl)⟩

end EkfCal
