import Verif.Lemmas.JointOps
import Verif.Lemmas.Window
import Verif.Spec.Samples
import Verif.Spec.Window
import Mathlib.Tactic.Linarith

/-!
# C03 — covariance rows stay attached to the component they describe
-/

set_option linter.unusedSectionVars false

namespace EkfCal
open Ekf
variable {K : Type} [Field K] [LinearOrder K]

/-- A filter that a history of calls has produced. -/
def Ekf.Reachable (N : Prim K) (e : Ekf K) : Prop :=
  ∃ p ops, (∀ op ∈ ops, Op.WF op) ∧ run N (init N p) ops = .ok e

theorem Ekf.Reachable.inv {N : Prim K} {e : Ekf K} (h : e.Reachable N) : Inv e := by
  obtain ⟨p, ops, hw, hr⟩ := h
  exact inv_run (inv_init N p) hw hr

/-! ## Registration -/

/-- IMU: everything is kept, and the new rows carry what the caller passed, provided no IMU with a larger id has
estimated components (or the new one has none). -/
theorem C03_imu_partial (N : Prim K) (e e' : Ekf K) (id : Nat) (s : ImuState K) (c : Mat K) (hr : e.Reachable N) (hw : s.WF)
    (hnew : e.state.imus.find? id = none) (hid : s.dim = 0 ∨ ∀ x ∈ e.state.imus, id < x.1 → x.2.dim = 0)
    (h : registerIMU N e id s c = .ok e') : e.Registers e' (s.parts id) (startCov e.useRoot s.dim c) := by
  have hi := hr.inv
  rcases registerIMU_form h with ⟨hf, _⟩ | ⟨_, out, ho, hrf⟩
  · rw [hnew] at hf; cases hf
  · rw [hw] at ho
    refine register_via (b := s.isExtrinsic || s.isIntrinsic) (A := [(.body, 18)] ++ mapNames ImuState.entries e.state.imus) (M := (s.entries id).map Entry.name)
      (B := mapNames GpsState.entries e.state.gpss ++ mapNames CamState.entries e.state.cams
        ++ mapNames FidState.entries e.state.fids ++ mapNames (fun k w => augEntriesFrom k w 0) e.state.augs)
      hrf hi (inv_registerIMU hi hw h) rfl ?_ ?_ ?_ rfl (imu_nameSize id s) ?_ (imu_parts id s)
    · exact fun hb => by unfold ImuState.dim; simp at hb; simp [hb.1, hb.2]
    · rw [State.names_eq]; simp
    · rw [State.names_eq]
      dsimp only
      rw [mapNames_insert_end imu_nameSize imu_pos hi.sorted.imus hnew hid]; simp
    · rw [nameSize_append, nameSize_mapNames imu_nameSize]
      rw [hi.imu] at ho
      exact ho

/-- GPS antenna. -/
theorem C03_gps_partial (N : Prim K) (e e' : Ekf K) (id : Nat) (s : GpsState K) (c : Mat K) (hr : e.Reachable N) (hw : s.WF)
    (hnew : e.state.gpss.find? id = none) (hid : s.dim = 0 ∨ ∀ x ∈ e.state.gpss, id < x.1 → x.2.dim = 0)
    (h : registerGPS N e id s c = .ok e') :
    e.Registers e' (if s.isExtrinsic then [(.gps id, 0, 3)] else []) (startCov e.useRoot s.dim c) := by
  have hi := hr.inv
  rcases registerGPS_form h with ⟨hf, _⟩ | ⟨_, out, ho, hrf⟩
  · rw [hnew] at hf; cases hf
  · rw [hw] at ho
    refine register_via (b := s.isExtrinsic) (A := [(.body, 18)] ++ mapNames ImuState.entries e.state.imus ++ mapNames GpsState.entries e.state.gpss)
      (M := (s.entries id).map Entry.name) (B := mapNames CamState.entries e.state.cams
        ++ mapNames FidState.entries e.state.fids ++ mapNames (fun k w => augEntriesFrom k w 0) e.state.augs)
      hrf hi (inv_registerGPS hi hw h) rfl ?_ ?_ ?_ rfl (gps_nameSize id s) ?_ ?_
    · exact fun hb => by unfold GpsState.dim; simp [hb]
    · rw [State.names_eq]; simp
    · rw [State.names_eq]
      dsimp only
      rw [mapNames_insert_end gps_nameSize gps_pos hi.sorted.gpss hnew hid]; simp
    · rw [nameSize_append, nameSize_append, nameSize_mapNames imu_nameSize, nameSize_mapNames gps_nameSize]
      rw [hi.imu, hi.gps] at ho
      exact ho
    · intro a o p hp
      unfold GpsState.entries
      split at hp
      · rename_i he
        simp only [List.mem_singleton, Prod.mk.injEq] at hp
        obtain ⟨rfl, rfl, rfl⟩ := hp
        exact ⟨[], [], by simp [he, Entry.name], rfl⟩
      · cases hp

/-- Camera. -/
theorem C03_camera_partial (N : Prim K) (e e' : Ekf K) (id : Nat) (s : CamState K) (c : Mat K) (hr : e.Reachable N) (hw : s.WF)
    (hnew : e.state.cams.find? id = none) (hid : s.dim = 0 ∨ ∀ x ∈ e.state.cams, id < x.1 → x.2.dim = 0)
    (h : registerCamera N e id s c = .ok e') :
    e.Registers e' (if s.isExtrinsic then [(.cam id, 0, 6)] else []) (startCov e.useRoot s.dim c) := by
  have hi := hr.inv
  rcases registerCamera_form h with ⟨hf, _⟩ | ⟨_, _, out, ho, hrf⟩
  · rw [hnew] at hf; cases hf
  · rw [hw] at ho
    refine register_via (b := s.isExtrinsic) (A := [(.body, 18)] ++ mapNames ImuState.entries e.state.imus ++ mapNames GpsState.entries e.state.gpss
        ++ mapNames CamState.entries e.state.cams)
      (M := (s.entries id).map Entry.name) (B := mapNames FidState.entries e.state.fids
        ++ mapNames (fun k w => augEntriesFrom k w 0) e.state.augs)
      hrf hi (inv_registerCamera hi hw h) rfl ?_ ?_ ?_ rfl (cam_nameSize id s) ?_ ?_
    · exact fun hb => by unfold CamState.dim; simp [hb]
    · rw [State.names_eq]; simp
    · rw [State.names_eq]
      dsimp only
      rw [mapNames_insert_end cam_nameSize cam_pos hi.sorted.cams hnew hid]; simp
    · rw [nameSize_append, nameSize_append, nameSize_append, nameSize_mapNames imu_nameSize, nameSize_mapNames gps_nameSize,
        nameSize_mapNames cam_nameSize]
      rw [hi.imu, hi.gps, hi.cam] at ho
      exact ho
    · intro a o p hp
      unfold CamState.entries
      split at hp
      · rename_i he
        simp only [List.mem_singleton, Prod.mk.injEq] at hp
        obtain ⟨rfl, rfl, rfl⟩ := hp
        exact ⟨[], [], by simp [he, Entry.name], rfl⟩
      · cases hp

/-- Fiducial: moreover there must be no clone yet. -/
theorem C03_fiducial_partial (N : Prim K) (e e' : Ekf K) (s : FidState K) (c : Mat K) (hr : e.Reachable N) (hw : s.WF)
    (hnew : e.state.fids.find? s.id = none)
    (hid : s.dim = 0 ∨ ((∀ x ∈ e.state.fids, s.id < x.1 → x.2.dim = 0) ∧ ∀ k, e.window k = []))
    (h : registerFiducial N e s c = .ok e') :
    e.Registers e' (if s.isExtrinsic then [(.fid s.id, 0, 6)] else []) (startCov e.useRoot s.dim c) := by
  have hi := hr.inv
  rcases registerFiducial_form h with ⟨hf, _⟩ | ⟨_, out, ho, hrf⟩
  · rw [hnew] at hf; cases hf
  · rw [hw] at ho
    have hparts : ∀ a o p, (a, o, p) ∈ (if s.isExtrinsic then [(Label.fid s.id, 0, 6)] else []) →
        ∃ M1 M2, (s.entries s.id).map Entry.name = M1 ++ (a, p) :: M2 ∧ nameSize M1 = o := by
      intro a o p hp
      unfold FidState.entries
      split at hp
      · rename_i he
        simp only [List.mem_singleton, Prod.mk.injEq] at hp
        obtain ⟨rfl, rfl, rfl⟩ := hp
        exact ⟨[], [], by simp [he, Entry.name], rfl⟩
      · cases hp
    have hid' : s.dim = 0 ∨ ∀ x ∈ e.state.fids, s.id < x.1 → x.2.dim = 0 := hid.imp id And.left
    have hB : mapNames (fun k w => augEntriesFrom k w 0) e.state.augs = [] ∨ (s.entries s.id).map Entry.name = [] := by
      rcases hid with h0 | ⟨_, h0⟩
      · exact .inr (names_nil_of_size (by rw [fid_nameSize]; exact h0) (fid_pos _ _))
      · left
        rw [mapNames, List.map_eq_nil_iff, List.eq_nil_iff_forall_not_mem]
        intro x hx
        obtain ⟨k, w, h1, h2⟩ := mem_mapEntries.1 hx
        have := h0 k
        unfold window UMap.getD at this
        rw [(UMap.find?_eq_some_iff hi.sorted.augs).2 h1] at this
        simp only [Option.getD_some] at this
        subst this
        cases h2
    refine register_via (b := s.isExtrinsic) (A := e.state.names) (M := (s.entries s.id).map Entry.name) (B := [])
      hrf hi (inv_registerFiducial hi hw h) rfl ?_ ?_ ?_ rfl (fid_nameSize s.id s) ?_ hparts
    · exact fun hb => by unfold FidState.dim; simp [hb]
    · simp
    · rw [State.names_eq, State.names_eq]
      dsimp only
      rw [mapNames_insert_end fid_nameSize fid_pos hi.sorted.fids hnew hid']
      rcases hB with hB | hB <;> rw [hB] <;> simp
    · rw [State.nameSize_names, ← hi.size]
      exact ho

/-! ## Cloning and dropping -/

theorem inv_body {e : Ekf K} (hi : Inv e) : e.state.body.index = 0 := by
  have := hi.tiles
  unfold State.blocks at this
  simp only [List.append_assoc, List.singleton_append] at this
  exact this.1

theorem Ekf.P_std {e : Ekf K} (hu : e.useRoot = false) : e.P = e.cov.get := by
  funext i j; unfold Ekf.P; rw [hu]; rfl

/-- A frame for which the filter clones the pose. Below the limit all components keep their names; at the limit the
oldest clone of that camera goes and the others move one place down. In both cases the new clone is the last one of its
window and has the covariances of the pose. Standard covariance; in square-root mode (upper-triangular factor) the first
case only. -/
theorem C03_frame_partial (N : Prim K) (e e' : Ekf K) (cam frame : Nat) (hr : e.Reachable N) (hc : e.ClonesFrame cam)
    (hroot : e.useRoot = true → e.cov.Upper ∧ (e.window cam).length + 1 ≤ e.maxTrackLength)
    (h : augmentFrame N e cam frame = .ok e') :
    ((e.window cam).length + 1 ≤ e.maxTrackLength ∧ e.Clones e' (.clone cam (e.window cam).length) Eq) ∨
    (e.maxTrackLength < (e.window cam).length + 1 ∧
      e.Clones e' (.clone cam ((e.window cam).length - 1)) fun a a' => a = reloc cam (· + 1) a') := by
  have hi := hr.inv
  have hsz := hi.size
  rcases augmentFrame_form h with ⟨hn, _⟩ | ⟨_, e1, h1, h2⟩
  · exact absurd hc hn
  rcases h1 with ⟨hl, h1⟩ | ⟨hl, first, rest, out, hw, ho, h1⟩
  · left
    refine ⟨hl, ?_⟩
    obtain ⟨L1, L2, o1, o2, n1, n2⟩ := window_split hi.sorted.augs cam
    have core := clone_core (s := e.state) (m := e.stateSize) (n := (e.window cam).length)
      (A := e.state.front ++ L1 ++ windowNames cam (e.window cam)) (B := L2) (cov := e.cov) h1 h2 hi.laid hsz.symm (inv_body hi)
      (by rw [State.names_front, n1]; simp [window])
      (by
        rw [State.names_front]
        show e.state.front ++ mapNames _ (UMap.insert e.state.augs cam (e.window cam ++ [e.newClone frame])) = _
        rw [n2, windowNames_snoc]; simp)
      ⟨hi.sorted.imus, hi.sorted.gpss, hi.sorted.cams, hi.sorted.fids, UMap.insert_sorted _ _ hi.sorted.augs⟩
      (by have := State.front_size e.state; simp only [nameSize_append]; omega)
      (by
        intro x hx
        simp only [List.mem_append] at hx
        rcases hx with ((hx | hx) | hx) | hx
        · exact State.front_label _ _ hx _ _ rfl
        · obtain ⟨k, p, hk, hh⟩ := o1 _ hx
          simp only [Prod.mk.injEq, Label.clone.injEq] at hh; omega
        · rw [windowNames_eq] at hx
          obtain ⟨q, hq, hh⟩ := List.mem_map.1 hx
          have := List.mem_range.1 hq
          simp only [Prod.mk.injEq, Label.clone.injEq] at hh; omega
        · obtain ⟨k, p, hk, hh⟩ := o2 _ hx
          simp only [Prod.mk.injEq, Label.clone.injEq] at hh; omega)
      rfl rfl hi.covRows hi.covCols (fun hu => (hroot hu).1)
    obtain ⟨c1, c2⟩ := core
    refine ⟨c1, ?_, ?_, ?_⟩
    · rintro b _ k l v rfl hk hv; exact (c2 k l v hk).1 b hv
    · rintro b _ k l v rfl hk hv; exact (c2 k l v hk).2.1 b hv
    · intro k l v hk hl hv; exact (c2 k l v hk).2.2 hl hv
  · right
    refine ⟨hl, ?_⟩
    have hu : e.useRoot = false := by
      cases hx : e.useRoot with
      | false => rfl
      | true =>
        have h3 := (hroot hx).2
        unfold window at h3
        omega
    -- the window was not empty
    have hw' : e.window cam ++ [e.newClone frame] = first :: rest := hw
    obtain ⟨w', hwin, hrest⟩ : ∃ w', e.window cam = first :: w' ∧ rest = w' ++ [e.newClone frame] := by
      cases hwin : e.window cam with
      | nil =>
        rw [hwin] at hw'
        simp only [List.nil_append, List.cons.injEq] at hw'
        obtain ⟨_, rfl⟩ := hw'
        -- then the window is empty after the refresh, and there is no last clone
        exfalso
        obtain ⟨b, _, hb, _⟩ := augmentAtBack_form h2
        have hrec := records_refresh h1 cam
        unfold records window at hrec
        simp only [UMap.getD_insert_self, List.map_nil, List.map_eq_nil_iff] at hrec
        rw [hrec] at hb
        cases hb
      | cons f w' =>
        rw [hwin] at hw'
        simp only [List.cons_append, List.cons.injEq] at hw'
        exact ⟨w', by rw [hw'.1], hw'.2.symm⟩
    have hlen : (e.window cam).length - 1 = w'.length := by rw [hwin]; simp
    let s0 : State K := { e.state with augs := UMap.insert e.state.augs cam w' }
    let s1 := s0.reindex
    have hgd : UMap.getD e.state.augs cam [] = first :: w' := hwin
    have hsort0 : s0.MapsSorted :=
      ⟨hi.sorted.imus, hi.sorted.gpss, hi.sorted.cams, hi.sorted.fids, UMap.insert_sorted _ _ hi.sorted.augs⟩
    obtain ⟨L1, L2, o1, o2, n1, n2⟩ := window_split hi.sorted.augs cam
    have hN : e.state.names = e.state.front ++ L1 ++ windowNames cam (first :: w') ++ L2 := by
      rw [State.names_front, n1, hgd]; simp
    have hN0 : s0.names = e.state.front ++ L1 ++ windowNames cam w' ++ L2 := by
      rw [State.names_front]
      show e.state.front ++ mapNames _ (UMap.insert e.state.augs cam w') = _
      rw [n2]; simp
    have hdim : s0.dim + 6 = e.stateSize := by
      rw [hsz, ← State.nameSize_names, ← State.nameSize_names, hN, hN0]
      simp only [nameSize_append]
      have a1 := window_nameSize cam w'
      have a2 := window_nameSize cam (first :: w')
      simp only [List.length_cons] at a2
      unfold windowNames
      omega
    have l1 : Laid s1 (e.stateSize - 6) := by
      refine ⟨State.reindex_sorted hsort0, ?_⟩
      have := State.reindex_tiles s0
      rwa [show s0.dim = e.stateSize - 6 by omega] at this
    have k1 := drop_core (s := e.state) (s1 := s1) (m := e.stateSize) (key := cam) (i := 0) (a := first) (cov := e.cov) (out := out)
      hi.laid l1 (by rw [hgd]; rfl) (by rw [State.names_reindex, hgd]; rfl) ho hi.covRows hi.covCols
    have hos := removeFromMatrix_shape ho
    have core := clone_core (s := s1) (m := e.stateSize - 6) (n := w'.length)
      (A := e.state.front ++ L1 ++ windowNames cam w') (B := L2) (cov := out) h1 h2 l1
      (by rw [State.reindex_dim]; omega) rfl
      (by rw [State.names_reindex, hN0])
      (by
        rw [State.names_front]
        show e.state.front ++ mapNames _ (UMap.insert e.state.augs cam rest) = _
        rw [n2, hrest, windowNames_snoc]; simp)
      ⟨hi.sorted.imus, hi.sorted.gpss, hi.sorted.cams, hi.sorted.fids, UMap.insert_sorted _ _ hi.sorted.augs⟩
      (by have := State.front_size e.state; simp only [nameSize_append]; omega)
      (by
        intro x hx
        simp only [List.mem_append] at hx
        rcases hx with ((hx | hx) | hx) | hx
        · exact State.front_label _ _ hx _ _ rfl
        · obtain ⟨k, p, hk, hh⟩ := o1 _ hx
          simp only [Prod.mk.injEq, Label.clone.injEq] at hh; omega
        · rw [windowNames_eq] at hx
          obtain ⟨q, hq, hh⟩ := List.mem_map.1 hx
          have := List.mem_range.1 hq
          simp only [Prod.mk.injEq, Label.clone.injEq] at hh; omega
        · obtain ⟨k, p, hk, hh⟩ := o2 _ hx
          simp only [Prod.mk.injEq, Label.clone.injEq] at hh; omega)
      (by show e.stateSize = _; omega) rfl (by rw [hos.2.1, hi.covRows]) (by rw [hos.2.2, hi.covCols])
      (by show e.useRoot = true → _; rw [hu]; intro hx; cases hx)
    have hPo : Pof e.useRoot out = out.get := by funext i j; unfold Pof; rw [hu]; rfl
    have hPe : e.P = e.cov.get := Ekf.P_std hu
    have hsk : (skip 0) = (· + 1) := by funext p; unfold skip; rw [if_neg (Nat.not_lt_zero _)]
    rw [hsk, ← hPe] at k1
    obtain ⟨c1, c2⟩ := core
    dsimp only at c1 c2
    rw [hPo] at c1 c2
    rw [hlen]
    refine ⟨?_, ?_, ?_, ?_⟩
    · exact (k1.trans c1).mono fun a b hab => ⟨b, hab, rfl⟩
    · rintro b b' k l v hb hk hv
      exact (c2 k l v hk).1 b' (k1 .body .body b b' _ _ v rfl hb hv)
    · rintro b b' k l v hb hk hv
      exact (c2 k l v hk).2.1 b' (k1 b b' .body .body _ _ v hb rfl hv)
    · intro k l v hk hl hv
      exact (c2 k l v hk).2.2 hl (k1 .body .body .body .body _ _ v rfl rfl hv)

/-- One step of the pruning loop. -/
theorem pruneAt_keeps {N : Prim K} {e e' : Ekf K} {i : Nat} (hi : Inv e) (hu : e.useRoot = false) (h : pruneAt N e i = .ok e') :
    ∃ σ : Nat → Nat, StrictMono σ ∧ (e.Keeps e' fun a a' => a = reloc 0 σ a') ∧ (∀ p, (e'.records 0)[p]? = (e.records 0)[σ p]?) := by
  have hi' := inv_pruneAt hi h
  obtain ⟨next, hn, hc | ⟨_, a, out, ha, hrm, hrf⟩⟩ := pruneAt_form h
  · obtain ⟨_, rfl⟩ := hc
    refine ⟨id, strictMono_id, ?_, fun p => rfl⟩
    refine (KeepsJoint.refl _ _).mono fun a b hab => ?_
    rw [hab]; cases b <;> simp [reloc]
  · have hlt := (List.getElem?_eq_some_iff.1 ha).1
    have hos := removeFromMatrix_shape hrm
    have hb := (removeFromMatrix_ok_iff e.cov a.index a.index 6).1 ⟨out, hrm⟩
    have hcr := hi.covRows
    have hcc := hi.covCols
    obtain ⟨L1, L2, o1, o2, n1, n2⟩ := window_split hi.sorted.augs 0
    have hd : ({ e.state with augs := e.state.augs.insert 0 ((e.state.augs.getD 0 []).eraseIdx i) } : State K).dim = e.stateSize - 6 := by
      rw [hi.size, ← State.nameSize_names, ← State.nameSize_names, State.names_front, State.names_front, n1]
      show nameSize (e.state.front ++ mapNames _ (UMap.insert e.state.augs 0 _)) = _
      rw [n2]
      simp only [nameSize_append]
      have a1 := window_nameSize 0 (e.state.augs.getD 0 [])
      have a2 := window_nameSize 0 ((e.state.augs.getD 0 []).eraseIdx i)
      rw [List.length_eraseIdx_of_lt hlt] at a2
      unfold windowNames
      omega
    obtain ⟨_, h1, _, h3⟩ := refreshIndices_ok (le_of_eq (by exact hd)) hrf
    have hsz' : e'.stateSize = e.stateSize - 6 := by rw [h3]
    have l' := hi'.laid
    rw [hsz'] at l'
    have k1 := drop_core (s := e.state) (s1 := e'.state) (key := 0) (i := i) (a := a) hi.laid l' ha
      (by rw [h1, State.names_reindex]) hrm hcr hcc
    have hu' : e'.useRoot = false := by rw [h3]; exact hu
    have hcov : e'.cov = out := by rw [h3]
    refine ⟨skip i, skip_strictMono i, ?_, fun p => ?_⟩
    · unfold Ekf.Keeps
      rw [Ekf.P_std hu, Ekf.P_std hu', hcov]
      exact k1
    · have hrec := records_refresh hrf 0
      rw [hrec]
      unfold records window
      rw [UMap.getD_insert_self, List.getElem?_map, List.getElem?_map, List.getElem?_eraseIdx]
      unfold skip
      split <;> rfl

theorem reloc_comp (key : Nat) (σ τ : Nat → Nat) (a : Label) : reloc key σ (reloc key τ a) = reloc key (σ ∘ τ) a := by
  cases a <;> try rfl
  rename_i k p
  by_cases h : k = key <;> simp [reloc, h]

theorem pruneLoop_keeps {N : Prim K} {n : Nat} {e e' : Ekf K} (hi : Inv e) (hu : e.useRoot = false) (h : pruneLoop N n e = .ok e') :
    ∃ σ : Nat → Nat, StrictMono σ ∧ (e.Keeps e' fun a a' => a = reloc 0 σ a') ∧ (∀ p, (e'.records 0)[p]? = (e.records 0)[σ p]?) ∧
      e'.useRoot = false := by
  induction n generalizing e with
  | zero =>
    cases h
    refine ⟨id, strictMono_id, ?_, fun p => rfl, hu⟩
    refine (KeepsJoint.refl _ _).mono fun a b hab => ?_
    rw [hab]; cases b <;> simp [reloc]
  | succ n ih =>
    simp only [pruneLoop, bind_ok_iff] at h
    obtain ⟨e1, h1, h2⟩ := h
    obtain ⟨σ, s1, s2, s3⟩ := pruneAt_keeps hi hu h1
    have hu1 : e1.useRoot = false := by rw [(frame2_pruneAt h1).useRoot]; exact hu
    obtain ⟨τ, t1, t2, t3, t4⟩ := ih (inv_pruneAt hi h1) hu1 h2
    refine ⟨σ ∘ τ, s1.comp t1, ?_, fun p => by rw [t3, s3]; rfl, t4⟩
    exact (KeepsJoint.trans s2 t2).mono fun a b hab => ⟨reloc 0 τ b, by rw [hab, reloc_comp], rfl⟩

theorem comp_touch (s : State K) (k : Nat) (a : Label) :
    ({ s with augs := s.augs.touch k [] } : State K).comp a = s.comp a := by
  cases a <;> simp only [State.comp]
  rw [UMap.getD_touch]

/-- A prediction under time- or error-driven cloning, standard covariance. `mid` is the filter after the propagation of
state and covariance (C08). From there on nothing is mixed up: the clone now at position `p` is the one that was at
position `σ p`, with everything recorded in it, and all covariances between the components are kept; and if a clone is
taken, it is the last one and has the covariances of the pose. -/
theorem C03_predict (N : Prim K) (e e' : Ekf K) (t : K) (hr : e.Reachable N) (hu : e.useRoot = false)
    (hty : e.augType = .time ∨ e.augType = .error) (ht : e.currentTime ≤ t) (h : predict N e t = .ok e') :
    ∃ (b : BodyState K) (out : Mat K) (σ : Nat → Nat),
      ((e.isGravityInitialized = false ∧ b = e.state.body ∧ out = e.cov) ∨
       (e.isGravityInitialized = true ∧ b = predictBody N e.isZeroAcceleration e.state.body (t - e.currentTime) ∧
        predictCov N e.useRoot e.stateSize e.cov e.processNoise (t - e.currentTime) = .ok out)) ∧
      StrictMono σ ∧
      ((({ e with state := { e.state with body := b }, cov := out } : Ekf K).Keeps e' fun a a' => a = reloc 0 σ a') ∧
        (∀ p, ((e'.window 0).map AugState.record)[p]? = ((e.window 0).map AugState.record)[σ p]?) ∨
       ∃ n, (e'.window 0).length = n + 1 ∧
        (({ e with state := { e.state with body := b }, cov := out } : Ekf K).Clones e' (.clone 0 n) fun a a' => a = reloc 0 σ a') ∧
        (∀ p, p < n → ((e'.window 0).map AugState.record)[p]? = ((e.window 0).map AugState.record)[σ p]?)) := by
  rcases predict_form h with ⟨hlt, _⟩ | ⟨_, b, out, hb, h⟩
  · exact absurd ht (not_le.2 hlt)
  have hi0 := hr.inv
  -- the filter after propagation
  let mid : Ekf K := { e with state := { e.state with body := b }, cov := out, currentTime := t }
  have hmid : Inv mid := by
    rcases hb with ⟨_, rfl, rfl⟩ | ⟨_, rfl, hp⟩
    · exact ⟨hi0.sorted, hi0.size, hi0.imu, hi0.gps, hi0.cam, hi0.fid, hi0.aug, hi0.covRows, hi0.covCols, hi0.noiseRows,
        hi0.noiseCols, hi0.tiles⟩
    · have hs := predictCov_shape (by rw [hi0.covRows, hi0.covCols]) hp
      refine ⟨⟨hi0.sorted.imus, hi0.sorted.gpss, hi0.sorted.cams, hi0.sorted.fids, hi0.sorted.augs⟩, hi0.size, hi0.imu, hi0.gps,
        hi0.cam, hi0.fid, hi0.aug, ?_, ?_, hi0.noiseRows, hi0.noiseCols, ?_⟩
      · show out.rows = e.stateSize; rw [hs.1, hi0.covRows]
      · show out.cols = e.stateSize; rw [hs.2, hi0.covCols]
      · have := hi0.tiles
        exact this
  rcases augmentTimed_form h with ⟨hn, _⟩ | ⟨_, due, e1, _, hp, h⟩
  · exact absurd hty hn
  have hti := inv_touchAug hmid 0
  obtain ⟨σ, s1, s2, s3, hu1⟩ := pruneLoop_keeps hti (by exact hu) hp
  have hi1 := inv_pruneLoop hti hp
  have s2' : mid.Keeps e1 fun a a' => a = reloc 0 σ a' := by
    intro a a' c c' k l v ha hc hv
    refine s2 a a' c c' k l v ha hc ?_
    obtain ⟨x, y, hx, hy, h1, h2, h3⟩ := State.joint_iff.1 hv
    exact State.joint_iff.2 ⟨x, y, by rw [comp_touch]; exact hx, by rw [comp_touch]; exact hy, h1, h2, h3⟩
  have hrec : ∀ p, (e1.records 0)[p]? = ((e.window 0).map AugState.record)[σ p]? := by
    intro p
    rw [s3 p]
    unfold records window
    dsimp only
    rw [UMap.getD_touch]
  rcases h with ⟨_, rfl⟩ | ⟨_, e2, e3, h1, h2, rfl⟩
  · exact ⟨b, out, σ, hb, s1, .inl ⟨s2', hrec⟩⟩
  · refine ⟨b, out, σ, hb, s1, .inr ⟨(e1.window 0).length, ?_, ?_, ?_⟩⟩
    · have q1 : (e3.records 0) = e2.records 0 := by unfold records window; rw [augmentAtBack_augs h2]
      have q2 := records_refresh h1 0
      rw [q2] at q1
      have := congrArg List.length q1
      unfold records window at this
      simp only [UMap.getD_insert_self, List.length_map, List.length_append, List.length_singleton] at this
      exact this
    · obtain ⟨L1, L2, o1, o2, n1, n2⟩ := window_split hi1.sorted.augs 0
      have core := clone_core (s := e1.state) (m := e1.stateSize) (n := (e1.window 0).length)
        (A := e1.state.front ++ L1 ++ windowNames 0 (e1.window 0)) (B := L2) (cov := e1.cov) h1 h2 hi1.laid hi1.size.symm (inv_body hi1)
        (by rw [State.names_front, n1]; simp [window])
        (by
          rw [State.names_front]
          show e1.state.front ++ mapNames _ (UMap.insert e1.state.augs 0 (e1.window 0 ++ [e1.newClone 0])) = _
          rw [n2, windowNames_snoc]; simp)
        ⟨hi1.sorted.imus, hi1.sorted.gpss, hi1.sorted.cams, hi1.sorted.fids, UMap.insert_sorted _ _ hi1.sorted.augs⟩
        (by have := State.front_size e1.state; simp only [nameSize_append]; omega)
        (by
          intro x hx
          simp only [List.mem_append] at hx
          rcases hx with ((hx | hx) | hx) | hx
          · exact State.front_label _ _ hx _ _ rfl
          · obtain ⟨k, p, hk, hh⟩ := o1 _ hx
            simp only [Prod.mk.injEq, Label.clone.injEq] at hh; omega
          · rw [windowNames_eq] at hx
            obtain ⟨q, hq, hh⟩ := List.mem_map.1 hx
            have := List.mem_range.1 hq
            simp only [Prod.mk.injEq, Label.clone.injEq] at hh; omega
          · obtain ⟨k, p, hk, hh⟩ := o2 _ hx
            simp only [Prod.mk.injEq, Label.clone.injEq] at hh; omega)
        rfl rfl hi1.covRows hi1.covCols (by show e1.useRoot = true → _; rw [hu1]; intro hx; cases hx)
      obtain ⟨c1, c2⟩ := core
      dsimp only at c1 c2
      refine ⟨?_, ?_, ?_, ?_⟩
      · exact (KeepsJoint.trans s2' c1).mono fun a b hab => ⟨b, hab, rfl⟩
      · rintro b b' k l v hb hk hv
        exact (c2 k l v hk).1 b' (s2' .body .body b b' _ _ v rfl hb hv)
      · rintro b b' k l v hb hk hv
        exact (c2 k l v hk).2.1 b' (s2' b b' .body .body _ _ v hb rfl hv)
      · intro k l v hk hl hv
        exact (c2 k l v hk).2.2 hl (s2' .body .body .body .body _ _ v rfl rfl hv)
    · intro p hpn
      have q1 : (e3.records 0) = e2.records 0 := by unfold records window; rw [augmentAtBack_augs h2]
      have q2 := records_refresh h1 0
      rw [q2] at q1
      have q3 := congrArg (fun l => l[p]?) q1
      unfold records window at q3
      simp only [UMap.getD_insert_self, List.map_append] at q3
      rw [List.getElem?_append_left (by simpa [window] using hpn)] at q3
      have := hrec p
      exact q3.trans this

/-! ## What the code does not keep -/

/-- Ids not in increasing order: after registering IMU 3 and then IMU 2, the row published for IMU 3 holds the variance
of IMU 2. -/
theorem C03_order_violated : ∃ e e' : Ekf ℚ, e.Reachable Samples.prim ∧ e.useRoot = false ∧
    registerIMU Samples.prim e 2 (Samples.imu false true) ⟨6, 6, fun i j => if i = j then 5 else 0⟩ = .ok e' ∧
    e.joint (.imuInt 3) (.imuInt 3) 0 0 = some 2 ∧ e'.joint (.imuInt 3) (.imuInt 3) 0 0 = some 5 ∧
    e'.joint (.imuInt 2) (.imuInt 2) 0 0 = some 2 := by
  obtain ⟨e, h1, h2⟩ : ∃ e, run Samples.prim (init Samples.prim (Samples.params .none false))
      [.registerIMU 3 (Samples.imu false true) (Samples.cov 6)] = .ok e ∧
      (match registerIMU Samples.prim e 2 (Samples.imu false true) ⟨6, 6, fun i j => if i = j then 5 else 0⟩ with
       | .ok e' => e.useRoot = false ∧ e.joint (.imuInt 3) (.imuInt 3) 0 0 = some 2 ∧
          e'.joint (.imuInt 3) (.imuInt 3) 0 0 = some 5 ∧ e'.joint (.imuInt 2) (.imuInt 2) 0 0 = some 2
       | .error _ => False) := ⟨_, rfl, rfl, by decide +kernel, by decide +kernel, by decide +kernel⟩
  split at h2
  · rename_i e' he'
    refine ⟨e, e', ⟨_, _, ?_, h1⟩, h2.1, he', h2.2⟩
    intro op hop
    simp only [List.mem_singleton] at hop
    subst hop
    exact ImuState.wf_setIsIntrinsic _ _
  · exact h2.elim

/-- A fiducial registered while clones exist: the row published for the clone holds the variance of the fiducial. -/
theorem C03_fiducial_violated : ∃ e e' : Ekf ℚ, e.Reachable Samples.prim ∧ e.useRoot = false ∧
    registerFiducial Samples.prim e (Samples.fid 4) ⟨6, 6, fun i j => if i = j then 5 else 0⟩ = .ok e' ∧
    e.joint (.clone 1 0) (.clone 1 0) 0 0 = some (1 / 100) ∧ e'.joint (.clone 1 0) (.clone 1 0) 0 0 = some 5 ∧
    e'.joint (.fid 4) (.fid 4) 0 0 = some (1 / 100) := by
  obtain ⟨e, h1, h2⟩ : ∃ e, run Samples.prim (init Samples.prim (Samples.params .all false))
      [.setMaxTrackLength 3, .frame 1 10] = .ok e ∧
      (match registerFiducial Samples.prim e (Samples.fid 4) ⟨6, 6, fun i j => if i = j then 5 else 0⟩ with
       | .ok e' => e.useRoot = false ∧ e.joint (.clone 1 0) (.clone 1 0) 0 0 = some (1 / 100) ∧
          e'.joint (.clone 1 0) (.clone 1 0) 0 0 = some 5 ∧ e'.joint (.fid 4) (.fid 4) 0 0 = some (1 / 100)
       | .error _ => False) := ⟨_, rfl, rfl, by decide +kernel, by decide +kernel, by decide +kernel⟩
  split at h2
  · rename_i e' he'
    refine ⟨e, e', ⟨_, _, ?_, h1⟩, h2.1, he', h2.2⟩
    intro op hop
    simp only [List.mem_cons, List.not_mem_nil, or_false] at hop
    rcases hop with rfl | rfl <;> exact trivial
  · exact h2.elim

/-- Square-root mode: the caller's covariance is stored as if it were a factor, so a variance of 2 becomes 4. -/
theorem C03_root_violated : ∃ e e' : Ekf ℚ, e.Reachable Samples.prim ∧ e.useRoot = true ∧
    registerGPS Samples.prim e 7 Samples.gps (Samples.cov 3) = .ok e' ∧ (Samples.cov 3).get 0 0 = 2 ∧
    e'.joint (.gps 7) (.gps 7) 0 0 = some 4 := by
  have h2 : (match registerGPS Samples.prim (init Samples.prim (Samples.params .none true)) 7 Samples.gps (Samples.cov 3) with
       | .ok e' => (Samples.cov 3).get 0 0 = 2 ∧ e'.joint (.gps 7) (.gps 7) 0 0 = some 4
       | .error _ => False) := ⟨by decide +kernel, by decide +kernel⟩
  split at h2
  · rename_i e' he'
    exact ⟨_, e', ⟨_, [], by simp, rfl⟩, rfl, he', h2⟩
  · exact h2.elim

/-- Square-root mode, dropping a component: what the deletion of rows and columns from the factor loses is exactly the
contribution of the deleted rows. -/
theorem C03_root_drop (R out : Mat K) (r n : Nat) (hs : R.rows = R.cols) (h : removeFromMatrix R r r n = .ok out)
    (i j : Nat) (hi : i < out.rows) (hj : j < out.rows) :
    gram out i j = gram R (shiftUp r n i) (shiftUp r n j) -
      ∑ k ∈ Finset.range n, R.get (r + k) (shiftUp r n i) * R.get (r + k) (shiftUp r n j) := by
  obtain ⟨h1, h2⟩ := (removeFromMatrix_ok_iff R r r n).1 ⟨out, h⟩
  obtain ⟨o, h', hr, _, hg⟩ := removeFromMatrix_spec R r r n h1 h2
  rw [h] at h'; cases h'
  obtain ⟨m, hm⟩ : ∃ m, R.rows = m + n := ⟨R.rows - n, by omega⟩
  have hom : out.rows = m := by omega
  unfold gram
  rw [hm, sum_insert (r := r) _ (by omega), add_sub_cancel_right, hom]
  refine Finset.sum_congr rfl fun k hk => ?_
  have := Finset.mem_range.1 hk
  rw [hg k i (by omega) (by omega), hg k j (by omega) (by omega)]

/-- So square-root mode drops information: an upper-triangular factor of 18 + 2·6 rows whose first clone is dropped. -/
theorem C03_root_drop_violated : ∃ R out : Mat ℚ, R.rows = 30 ∧ R.cols = 30 ∧ R.Upper ∧
    removeFromMatrix R 18 18 6 = .ok out ∧ gram out 18 18 ≠ gram R 24 24 := by
  refine ⟨⟨30, 30, fun i j => if i ≤ j then 1 else 0⟩, ?_⟩
  obtain ⟨o, h', hr, _, hg⟩ := removeFromMatrix_spec (⟨30, 30, fun i j => if i ≤ j then 1 else 0⟩ : Mat ℚ) 18 18 6 (by decide) (by decide)
  refine ⟨o, rfl, rfl, fun i j _ _ h => if_neg (by omega), h', ?_⟩
  rw [C03_root_drop _ _ 18 6 rfl h' 18 18 (by rw [hr]; decide) (by rw [hr]; decide)]
  have : shiftUp 18 6 18 = 24 := rfl
  rw [this]
  have h6 : ∑ k ∈ Finset.range 6, (if 18 + k ≤ 24 then (1 : ℚ) else 0) * (if 18 + k ≤ 24 then 1 else 0) = 6 := by decide +kernel
  rw [h6]
  intro hx
  linarith

/-! ## Reachable cases -/

/-- Cameras registered in order, clones taken and one dropped: the hypotheses of the theorems hold. -/
example : ∃ e : Ekf ℚ, run Samples.prim (init Samples.prim (Samples.params .all false))
    [.registerIMU 3 (Samples.imu true true) (Samples.cov 12), .registerCamera 1 Samples.cam (Samples.cov 6), .setMaxTrackLength 2,
     .frame 1 10, .predict 1, .frame 1 11] = .ok e ∧
    (e.useRoot = false ∧ e.ClonesFrame 1 ∧ e.maxTrackLength < (e.window 1).length + 1 ∧
      e.state.imus.find? 5 = none ∧ (∀ x ∈ e.state.imus, 5 < x.1 → x.2.dim = 0) ∧
      e.joint (.clone 1 1) (.imuExt 3) 0 0 = some 0 ∧ e.joint (.clone 1 1) .body 0 0 = some (1 / 100)) := by
  refine ⟨_, rfl, rfl, .inl rfl, by decide +kernel, rfl, by decide +kernel, by decide +kernel, by decide +kernel⟩

end EkfCal
