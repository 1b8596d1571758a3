import Verif.Spec.Collections
import Verif.Lemmas.Correct
import Verif.Spec.Samples

/-!
# C51: corrections of a collection of sensors use consecutive slices
-/

namespace EkfCal
variable {K : Type} [Field K]

theorem loopIdx_slices {α : Type} {f : α → Nat → Res (α × Nat)} {g : α → Nat → α} {dim : α → Nat} {n : Nat}
    (hf : ∀ a i, i + dim a ≤ n → f a i = .ok (g a i, i + dim a)) :
    ∀ (m : List α) (o : Nat), o + (m.map dim).sum ≤ n → ∃ m', loopIdx f m o = .ok (m', o + (m.map dim).sum) ∧
      m'.length = m.length ∧ ∀ (i : Nat) (a : α), m[i]? = some a → m'[i]? = some (g a (o + ((m.take i).map dim).sum))
  | [], o, _ => ⟨[], by simp [loopIdx], rfl, by simp⟩
  | a :: m, o, h => by
    simp only [List.map_cons, List.sum_cons] at h ⊢
    obtain ⟨m', h1, h2, h3⟩ := loopIdx_slices hf m (o + dim a) (by omega)
    refine ⟨g a o :: m', ?_, by simp [h2], ?_⟩
    · rw [← Nat.add_assoc]
      exact loopIdx_cons (hf a o (by omega)) h1
    · intro i x hx
      cases i with
      | zero => simp only [List.getElem?_cons_zero, Option.some.injEq] at hx; subst hx; simp
      | succ i =>
        simp only [List.getElem?_cons_succ] at hx
        have := h3 i x hx
        simpa [Nat.add_assoc] using this

theorem loopMap_slices {α : Type} {f : α → Nat → Res (α × Nat)} {g : α → Nat → α} {dim : α → Nat} {n : Nat}
    (hf : ∀ a i, i + dim a ≤ n → f a i = .ok (g a i, i + dim a)) (m : UMap α) (h : mapDim dim m ≤ n) :
    ∃ m', loopMap f m 0 = .ok (m', mapDim dim m) ∧ m'.length = m.length ∧
      ∀ (i k : Nat) (a : α), m[i]? = some (k, a) → m'[i]? = some (k, g a (startOf dim m i)) := by
  obtain ⟨m', h1, h2, h3⟩ := loopIdx_slices (f := fun (kv : Nat × α) i => do
      let (v, i) ← f kv.2 i
      pure ((kv.1, v), i)) (g := fun kv i => (kv.1, g kv.2 i)) (dim := fun kv => dim kv.2) (n := n)
    (by intro a i hi; dsimp only at hi ⊢; rw [hf a.2 i hi]; rfl) m 0 (by unfold mapDim at h; omega)
  refine ⟨m', by unfold loopMap; rw [h1]; simp [mapDim], h2, fun i k a hi => ?_⟩
  have := h3 i (k, a) hi
  simpa [startOf] using this

/-- **IMUs take consecutive slices**: pose first, then biases, as far as calibrated. -/
theorem C51_imus (N : Prim K) (m : UMap (ImuState K)) (v : Vec K) (h : mapDim ImuState.dim m ≤ v.size) :
    ∃ m', imuMapAddVec N m v = .ok m' ∧ m'.length = m.length ∧
      ∀ (i k : Nat) (s : ImuState K), m[i]? = some (k, s) → m'[i]? = some (k, s.movedFrom N v (startOf ImuState.dim m i)) := by
  obtain ⟨m', h1, h2⟩ := loopMap_slices (f := fun x i => ImuState.addVecAt N x v i)
    (g := fun s o => s.movedFrom N v o) (dim := ImuState.dim) (n := v.size) (by
      intro s i hi
      unfold ImuState.addVecAt
      rcases s with ⟨a, b, c, d, p, q, ab, ob, sz, ix, ii, ie, ext, int⟩
      cases ext <;> cases int <;> simp [ImuState.dim] at hi
      · simp [ImuState.movedFrom, ImuState.dim]
      · simp [Vec.segment3_ok (v := v) (i := i) (by omega), Vec.segment3_ok (v := v) (i := i + 3) (by omega),
          ImuState.movedFrom, imuIntSize, ImuState.dim]
      · simp [Vec.segment3_ok (v := v) (i := i) (by omega), Vec.segment3_ok (v := v) (i := i + 3) (by omega),
          ImuState.movedFrom, imuExtSize, Quat.moved, ImuState.dim]
      · simp [Vec.segment3_ok (v := v) (i := i) (by omega), Vec.segment3_ok (v := v) (i := i + 3) (by omega),
          Vec.segment3_ok (v := v) (i := i + 6) (by omega), Vec.segment3_ok (v := v) (i := i + 6 + 3) (by omega),
          ImuState.movedFrom, imuExtSize, imuIntSize, Quat.moved, ImuState.dim]) m h
  exact ⟨m', by unfold imuMapAddVec; rw [h1]; rfl, h2⟩

/-- **A single IMU takes the vector from its start.** -/
theorem C51_imu (N : Prim K) (s : ImuState K) (v : Vec K) (h : s.dim ≤ v.size) :
    s.addVec N v = .ok (s.movedFrom N v 0) := by
  obtain ⟨m', h1, _, h3⟩ := C51_imus N [(0, s)] v (by simpa [mapDim] using h)
  unfold imuMapAddVec loopMap loopIdx at h1
  unfold ImuState.addVec
  simp only [bind_ok_iff, pure_res, Except.ok.injEq, loopIdx] at h1 ⊢
  obtain ⟨x, ⟨y, ⟨z, hz, rfl⟩, w, rfl, rfl⟩, rfl⟩ := h1
  refine ⟨z, hz, ?_⟩
  have := h3 0 0 s rfl
  simpa [startOf] using this

/-- **Clones take consecutive slices of six.** -/
theorem C51_clones (N : Prim K) (w : List (AugState K)) (v : Vec K) (h : 6 * w.length ≤ v.size) :
    ∃ w', augVecAddVec N w v = .ok w' ∧ w'.length = w.length ∧
      ∀ (i : Nat) (s : AugState K), w[i]? = some s → w'[i]? = some (s.movedFrom N v (6 * i)) := by
  have hsum : ∀ l : List (AugState K), (l.map fun _ => 6).sum = 6 * l.length := by
    intro l; simp [Nat.mul_comm]
  obtain ⟨w', h1, h2, h3⟩ := loopIdx_slices (f := fun x i => AugState.addVecAt N x v i)
    (g := fun s o => s.movedFrom N v o) (dim := fun _ => 6) (n := v.size) (by
      intro s i hi
      unfold AugState.addVecAt
      simp [Vec.segment3_ok (v := v) (i := i) (by omega), Vec.segment3_ok (v := v) (i := i + 3) (by omega),
        AugState.movedFrom, Quat.moved, augSize]) w 0 (by rw [hsum]; omega)
  refine ⟨w', by unfold augVecAddVec; rw [h1]; rfl, h2, fun i s hi => ?_⟩
  have := h3 i s hi
  have hlen : i < w.length := (List.getElem?_eq_some_iff.1 hi).1
  rw [hsum, List.length_take, min_eq_left (by omega), Nat.zero_add] at this
  exact this

/-- **Cameras**: right only for a single calibrated camera. -/
theorem C51_cams_partial (N : Prim K) (k : Nat) (s : CamState K) (v : Vec K) (hs : s.isExtrinsic = true) (h : 6 ≤ v.size) :
    camMapAddVec N [(k, s)] v = .ok [(k, s.movedFrom N v 0)] := by
  simp [camMapAddVec, loopMap, loopIdx, Vec.segment3_ok (v := v) (i := 0) (by omega),
    Vec.segment3_ok (v := v) (i := 3) (by omega), CamState.movedFrom, hs, Quat.moved]

/-- **Two calibrated cameras are both moved by the first slice.** -/
theorem C51_cams_violated : ¬ ∀ (m : UMap (CamState ℚ)) (v : Vec ℚ), UMap.Sorted m → mapDim CamState.dim m ≤ v.size →
    ∃ m', camMapAddVec Samples.prim m v = .ok m' ∧
      ∀ (i k : Nat) (s : CamState ℚ), m[i]? = some (k, s) →
        m'[i]? = some (k, s.movedFrom Samples.prim v (startOf CamState.dim m i)) := by
  intro h
  obtain ⟨m', h1, h2⟩ := h [(1, Samples.cam), (2, Samples.cam)] ⟨12, fun i => if i < 6 then 1 else 5⟩
    (by simp [UMap.Sorted]) (by decide)
  have h3 := h2 1 2 Samples.cam rfl
  have hx : (match camMapAddVec Samples.prim [(1, Samples.cam), (2, Samples.cam)] ⟨12, fun i => if i < 6 then 1 else 5⟩ with
    | .ok m => (m[1]?.map fun x => x.2.pos 0) | .error _ => none) = some 1 := by decide +kernel
  rw [h1] at hx
  simp only [h3, Option.map_some] at hx
  revert hx
  decide +kernel

/-- **A camera that is not calibrated is moved all the same.** -/
theorem C51_uncalibrated_violated : ¬ ∀ (m : UMap (CamState ℚ)) (v : Vec ℚ), (∀ x ∈ m, x.2.isExtrinsic = false) →
    ∀ m', camMapAddVec Samples.prim m v = .ok m' →
      m'.map (fun x => (x.1, x.2.pos 0)) = m.map fun x => (x.1, x.2.pos 0) := by
  intro h
  have hx : ∃ m', camMapAddVec Samples.prim [(1, (CamState.default : CamState ℚ))] ⟨6, fun _ => 1⟩ = .ok m' ∧
      (m'.map fun x => (x.1, x.2.pos 0)) = [(1, 1)] :=
    Samples.ok_of_check (P := fun m' : UMap (CamState ℚ) => (m'.map fun x => (x.1, x.2.pos 0)) = [(1, 1)]) (by decide +kernel)
  obtain ⟨m', h1, h2⟩ := hx
  have := h [(1, CamState.default)] ⟨6, fun _ => 1⟩ (by simp [CamState.default]) m' h1
  rw [h2] at this
  revert this
  decide +kernel

/-- Two IMUs with different calibration and a vector of exactly their size. -/
example : mapDim ImuState.dim [(1, Samples.imu true true), (4, Samples.imu false true)] ≤ (⟨18, fun i => (i : ℚ)⟩ : Vec ℚ).size ∧
    startOf ImuState.dim [(1, Samples.imu true true), (4, Samples.imu false true)] 1 = 12 := by
  decide

end EkfCal
