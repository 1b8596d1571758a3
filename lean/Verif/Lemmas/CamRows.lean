import Verif.Spec.CamRows
import Verif.Lemmas.Triangulate
import Verif.Lemmas.Columns
import Mathlib.Tactic.Abel

/-!
# The rows of one observation, entry by entry
-/

set_option linter.unusedSectionVars false

namespace EkfCal
open Ekf
variable {K : Type} [Field K] [LinearOrder K]

theorem cam_aug_columns {s : State K} {n : Nat} (h : Tiles s.blocks 0 n) {k k' : Nat} {g : CamState K}
    (hg : s.cams.find? k = some g) (he : g.isExtrinsic = true) {w : List (AugState K)} (hw : s.augs.find? k' = some w)
    {a : AugState K} (ha : a ∈ w) : g.index + 6 ≤ a.index := by
  obtain ⟨_, b, c, d, h1, h2, h3, h4, h5, _⟩ := State.tiles_kinds h
  have := h3.mem_bounds (mem_mapBlocks (blocks := CamState.blocks) hg (x := (g.index, 6)) (by simp [CamState.blocks, he]))
  have := h5.mem_bounds (mem_mapBlocks (blocks := augBlocks) hw (x := (a.index, 6)) (List.mem_map.2 ⟨a, ha, rfl⟩))
  have := h4.le'
  dsimp only at *; omega

theorem aug_columns {s : State K} {n : Nat} (h : Tiles s.blocks 0 n) {k' : Nat} {w : List (AugState K)}
    (hw : s.augs.find? k' = some w) {a : AugState K} (ha : a ∈ w) : 18 ≤ a.index ∧ a.index + 6 ≤ n := by
  obtain ⟨_, b, c, d, h1, h2, h3, h4, h5, _⟩ := State.tiles_kinds h
  have := h5.mem_bounds (mem_mapBlocks (blocks := augBlocks) hw (x := (a.index, 6)) (List.mem_map.2 ⟨a, ha, rfl⟩))
  have := h1.le'; have := h2.le'; have := h3.le'; have := h4.le'
  dsimp only at *; omega

theorem tiles_next {w : List (AugState K)} {d n : Nat} (h : Tiles (augBlocks w) d n) {j : Nat} {a b : AugState K}
    (ha : w[j]? = some a) (hb : w[j + 1]? = some b) : b.index = a.index + 6 := by
  induction w generalizing d j with
  | nil => simp at ha
  | cons x xs ih =>
    obtain ⟨h1, h2⟩ := h
    cases j with
    | succ j => exact ih h2 (by simpa using ha) (by simpa using hb)
    | zero =>
      simp only [List.getElem?_cons_zero, Option.some.injEq] at ha
      subst ha
      cases xs with
      | nil => simp at hb
      | cons y ys =>
        simp only [zero_add, List.getElem?_cons_succ, List.getElem?_cons_zero, Option.some.injEq] at hb
        subst hb
        have := h2.1
        omega

theorem tiles_last {w : List (AugState K)} {d n : Nat} (h : Tiles (augBlocks w) d n) {a : AugState K}
    (ha : w.getLast? = some a) : a.index + 6 = n := by
  induction w generalizing d with
  | nil => simp at ha
  | cons x xs ih =>
    obtain ⟨h1, h2⟩ := h
    cases xs with
    | nil =>
      simp only [List.getLast?_singleton, Option.some.injEq] at ha
      subst ha
      have : d + 6 = n := h2
      omega
    | cons y ys => exact ih h2 (by rw [← ha]; simp)

theorem window_tiles {s : State K} {n : Nat} (h : Tiles s.blocks 0 n) {k : Nat} {w : List (AugState K)}
    (hw : s.augs.find? k = some w) : ∃ d m, Tiles (augBlocks w) d m := by
  obtain ⟨_, b, c, d, h1, h2, h3, h4, h5, _⟩ := State.tiles_kinds h
  obtain ⟨l₁, l₂, hl⟩ := List.append_of_mem (UMap.mem_of_find? hw)
  rw [mapBlocks, hl, List.flatMap_append, List.flatMap_cons] at h5
  obtain ⟨x, _, hm⟩ := h5.append_inv
  obtain ⟨y, hm, _⟩ := hm.append_inv
  exact ⟨x, y, hm⟩

/-- If no other window has clones, the window of `k` ends the state. -/
theorem only_window_tiles {s : State K} {n : Nat} (h : Tiles s.blocks 0 n) (hs : UMap.Sorted s.augs) {k : Nat}
    {w : List (AugState K)} (hw : s.augs.find? k = some w) (ho : ∀ k', k' ≠ k → s.augs.getD k' [] = []) :
    ∃ d, Tiles (augBlocks w) d n := by
  obtain ⟨_, b, c, d, h1, h2, h3, h4, h5, _⟩ := State.tiles_kinds h
  obtain ⟨l₁, l₂, hl⟩ := List.append_of_mem (UMap.mem_of_find? hw)
  have hk : ∀ kv ∈ l₂, kv.2 = [] := by
    rintro ⟨k', v⟩ hkv
    have hne : k' ≠ k := by
      have h6 : UMap.Sorted ((l₁ ++ (k, w) :: l₂ : UMap (List (AugState K)))) := by rw [← hl]; exact hs
      have h7 := (List.pairwise_append.1 h6).2.1
      exact ((List.pairwise_cons.1 h7).1 _ hkv).ne'
    have hf : s.augs.find? k' = some v := (UMap.find?_eq_some_iff hs).2 (by rw [hl]; simp [hkv])
    have := ho k' hne
    rw [UMap.getD, hf] at this
    exact this
  have h6 : l₂.flatMap (fun kv => augBlocks kv.2) = [] := by
    rw [List.flatMap_eq_nil_iff]
    intro kv hkv
    rw [hk kv hkv]; rfl
  rw [mapBlocks, hl, List.flatMap_append, List.flatMap_cons, h6, List.append_nil] at h5
  obtain ⟨x, _, hm⟩ := h5.append_inv
  exact ⟨x, hm⟩

theorem toMat23_get (m : Matrix (Fin 2) (Fin 3) K) (i : Fin 2) (j : Fin 3) : (MsckfUpdater.toMat23 m).get i.1 j.1 = m i j := by
  show (if h : i.1 < 2 ∧ j.1 < 3 then m ⟨i.1, h.1⟩ ⟨j.1, h.2⟩ else 0) = m i j
  rw [dif_pos ⟨i.2, j.2⟩]

theorem getBlock_in {m out s : Mat K} {i j p q : Nat} (h : m.setBlock i j p q s = .ok out) {a b : Nat} (ha : a < p) (hb : b < q) :
    out.get (i + a) (j + b) = s.get a b := by
  obtain ⟨_, _, rfl⟩ := Mat.setBlock_ok_iff.1 h
  dsimp only
  rw [if_pos (by omega), Nat.add_sub_cancel_left, Nat.add_sub_cancel_left]

theorem getBlock_out {m out s : Mat K} {i j p q : Nat} (h : m.setBlock i j p q s = .ok out) {a b : Nat}
    (hab : ¬ (i ≤ a ∧ a < i + p ∧ j ≤ b ∧ b < j + q)) : out.get a b = m.get a b := by
  obtain ⟨_, _, rfl⟩ := Mat.setBlock_ok_iff.1 h
  exact if_neg hab

theorem block23_in {m out : Mat K} {i j : Nat} {s : Matrix (Fin 2) (Fin 3) K}
    (h : m.setBlock i j 2 3 (MsckfUpdater.toMat23 s) = .ok out) : out.block23 i j = s := by
  funext a b
  rw [Mat.block23, getBlock_in h a.2 b.2, toMat23_get]

theorem block23_out {m out s : Mat K} {i j p q c : Nat} (h : m.setBlock i j p q s = .ok out) (hc : c + 3 ≤ j ∨ j + q ≤ c)
    (r : Nat) : out.block23 r c = m.block23 r c := by
  funext a b
  exact getBlock_out h (by have := b.2; omega)

theorem block23_left {m out : Mat K} {i j : Nat} {s t : Matrix (Fin 2) (Fin 3) K} {k : K}
    (h : m.setBlock i j 2 augSize ((MsckfUpdater.cat23 s t).smul k) = .ok out) : out.block23 i j = k • s := by
  funext a b
  rw [Mat.block23, getBlock_in h a.2 (by have := b.2; simp only [augSize]; omega)]
  have := b.2
  simp only [Mat.smul, MsckfUpdater.cat23, if_pos this, toMat23_get, Matrix.smul_apply, smul_eq_mul, mul_comm]

theorem block23_left' {m out : Mat K} {i j : Nat} {s t : Matrix (Fin 2) (Fin 3) K}
    (h : m.setBlock i j 2 augSize (MsckfUpdater.cat23 s t) = .ok out) : out.block23 i j = s := by
  funext a b
  rw [Mat.block23, getBlock_in h a.2 (by have := b.2; simp only [augSize]; omega)]
  have := b.2
  simp only [MsckfUpdater.cat23, if_pos this, toMat23_get]

theorem block23_right {m out : Mat K} {i j : Nat} {s t : Matrix (Fin 2) (Fin 3) K} {k : K}
    (h : m.setBlock i j 2 augSize ((MsckfUpdater.cat23 s t).smul k) = .ok out) : out.block23 i (j + 3) = k • t := by
  funext a b
  have hb := b.2
  rw [Mat.block23, Nat.add_assoc, getBlock_in h a.2 (by simp only [augSize]; omega)]
  simp only [Mat.smul, MsckfUpdater.cat23]
  rw [if_neg (by omega), Nat.add_sub_cancel_left, toMat23_get, Matrix.smul_apply, smul_eq_mul, mul_comm]

theorem block23_right' {m out : Mat K} {i j : Nat} {s t : Matrix (Fin 2) (Fin 3) K}
    (h : m.setBlock i j 2 augSize (MsckfUpdater.cat23 s t) = .ok out) : out.block23 i (j + 3) = t := by
  funext a b
  have hb := b.2
  rw [Mat.block23, Nat.add_assoc, getBlock_in h a.2 (by simp only [augSize]; omega)]
  simp only [MsckfUpdater.cat23]
  rw [if_neg (by omega), Nat.add_sub_cancel_left, toMat23_get]

/-- The sources of the pose in terms of the written blocks: weight and first column. -/
def writtenAt (n : Nat) (a : AugState K) : List (Nat × Nat × K) :=
  if a.alpha = 0 then [(a.index, a.index + 3, 1)]
  else [(a.index, a.index + 3, 1 - a.alpha),
    if a.index + 12 > n then (0, 9, a.alpha) else (a.index + 6, a.index + 9, a.alpha)]

/-- What `observe` does to the three arrays. -/
structure Observed (N : Num K) (u : MsckfUpdater K) (n cam i : Nat) (F : V3 K) (a : AugState K) (p : FeaturePoint K)
    (Hf Hc : Mat K) (res : Vec K) (Hf' Hc' : Mat K) (res' : Vec K) : Prop where
  fit : 2 * i + 2 ≤ res.size
  size : res'.size = res.size
  fdim : Hf'.rows = Hf.rows ∧ Hf'.cols = Hf.cols
  cdim : Hc'.rows = Hc.rows ∧ Hc'.cols = Hc.cols
  residual : res'.part2 (2 * i) = normalisePixel u.intr p.x p.y - project
    (u.angC.toMat.transpose.mulVec (a.ang.toMat.transpose.mulVec (F - a.pos) - u.posC))
  feature : Hf'.block23 (2 * i) 0 = distortionJacobian (normalisePixel u.intr p.x p.y) u.intr * projectionJacobian
    (u.angC.toMat.transpose.mulVec (a.ang.toMat.transpose.mulVec (F - a.pos) - u.posC)) *
    (u.angC.toMat.transpose * a.ang.toMat.transpose)
  camera : u.isCamExtrinsic = true → Hc'.block23 (2 * i) cam = -(distortionJacobian (normalisePixel u.intr p.x p.y) u.intr *
    projectionJacobian (u.angC.toMat.transpose.mulVec (a.ang.toMat.transpose.mulVec (F - a.pos) - u.posC)) *
    u.angC.toMat.transpose)
  pose : ∀ x ∈ writtenAt n a, Hc'.block23 (2 * i) x.1 = -(x.2.2 • (distortionJacobian (normalisePixel u.intr p.x p.y) u.intr *
    projectionJacobian (u.angC.toMat.transpose.mulVec (a.ang.toMat.transpose.mulVec (F - a.pos) - u.posC)) *
    (u.angC.toMat.transpose * a.ang.toMat.transpose)))
  cameraAng : u.isCamExtrinsic = true → Hc'.block23 (2 * i) (cam + 3) = distortionJacobian (normalisePixel u.intr p.x p.y) u.intr *
    projectionJacobian (u.angC.toMat.transpose.mulVec (a.ang.toMat.transpose.mulVec (F - a.pos) - u.posC)) *
    u.angC.toMat.transpose * skew (a.ang.toMat.transpose.mulVec (F - a.pos) - u.posC) * (N.quatJac u.angC).transpose
  poseAng : ∀ x ∈ writtenAt n a, Hc'.block23 (2 * i) x.2.1 = x.2.2 • (distortionJacobian (normalisePixel u.intr p.x p.y) u.intr *
    projectionJacobian (u.angC.toMat.transpose.mulVec (a.ang.toMat.transpose.mulVec (F - a.pos) - u.posC)) *
    (u.angC.toMat.transpose * a.ang.toMat.transpose * skew (F - a.pos) * (N.quatJac a.ang).transpose))
  rest : ∀ r c, ¬ (u.isCamExtrinsic = true ∧ InCols c cam 6) →
    (∀ x ∈ writtenAt n a, ¬ InCols c x.1 3 ∧ ¬ InCols c x.2.1 3) → Hc'.get r c = Hc.get r c
  other : ∀ r c, r < 2 * i ∨ 2 * i + 2 ≤ r → Hf'.get r c = Hf.get r c ∧ Hc'.get r c = Hc.get r c ∧ res'.get r = res.get r

theorem block23_of_block {m out b : Mat K} {i j : Nat} {s t : Matrix (Fin 2) (Fin 3) K} {k : K}
    (hb : ((MsckfUpdater.cat23 s t).smul k).block 0 0 2 3 = .ok b) (h : m.setBlock i j 2 3 b = .ok out) :
    out.block23 i j = k • s := by
  obtain ⟨_, rfl⟩ := Mat.block_ok_iff.1 hb
  funext x y
  rw [Mat.block23, getBlock_in h x.2 y.2]
  have := y.2
  simp only [Mat.smul, MsckfUpdater.cat23, zero_add, if_pos this, toMat23_get, Matrix.smul_apply, smul_eq_mul, mul_comm]

theorem block23_of_block' {m out b : Mat K} {i j : Nat} {s t : Matrix (Fin 2) (Fin 3) K} {k : K}
    (hb : ((MsckfUpdater.cat23 s t).smul k).block 0 3 2 3 = .ok b) (h : m.setBlock i j 2 3 b = .ok out) :
    out.block23 i j = k • t := by
  obtain ⟨_, rfl⟩ := Mat.block_ok_iff.1 hb
  funext x y
  rw [Mat.block23, getBlock_in h x.2 y.2]
  have := y.2
  simp only [Mat.smul, MsckfUpdater.cat23, zero_add]
  rw [if_neg (by omega), Nat.add_sub_cancel_left, toMat23_get, Matrix.smul_apply, smul_eq_mul, mul_comm]

/-- The part of `observe` that writes the columns of the pose. -/
theorem observe_pose {X : Type} {f : Mat K → X} {n i : Nat} {a : AugState K} {Hc : Mat K}
    {s t : Matrix (Fin 2) (Fin 3) K} {out : X}
    (h : (if a.alpha ≠ 0 then do
        let Hc ← Hc.setBlock (2 * i) a.index 2 augSize ((MsckfUpdater.cat23 s t).smul (1 - a.alpha))
        if a.index + 2 * augSize > n then do
          let b ← ((MsckfUpdater.cat23 s t).smul a.alpha).block 0 0 2 3
          let Hc ← Hc.setBlock (2 * i) 0 2 3 b
          let b ← ((MsckfUpdater.cat23 s t).smul a.alpha).block 0 3 2 3
          let Hc ← Hc.setBlock (2 * i) 9 2 3 b
          pure (f Hc)
        else do
          let Hc ← Hc.setBlock (2 * i) (a.index + augSize) 2 augSize ((MsckfUpdater.cat23 s t).smul a.alpha)
          pure (f Hc)
      else do
        let Hc ← Hc.setBlock (2 * i) a.index 2 augSize (MsckfUpdater.cat23 s t)
        pure (f Hc) : Res X) = .ok out) (hidx : a.alpha = 0 ∨ 18 ≤ a.index) :
    ∃ Hc', out = f Hc' ∧ (Hc'.rows = Hc.rows ∧ Hc'.cols = Hc.cols) ∧
      (∀ x ∈ writtenAt n a, Hc'.block23 (2 * i) x.1 = x.2.2 • s ∧ Hc'.block23 (2 * i) x.2.1 = x.2.2 • t) ∧
      (∀ r c, (∀ x ∈ writtenAt n a, ¬ InCols c x.1 3 ∧ ¬ InCols c x.2.1 3) → Hc'.get r c = Hc.get r c) ∧
      (∀ r c, r < 2 * i ∨ 2 * i + 2 ≤ r → Hc'.get r c = Hc.get r c) := by
  split at h
  · rename_i hα
    have hidx := hidx.resolve_left hα
    obtain ⟨H1, g1, h⟩ := bind_ok_iff.1 h
    have d1 := (Mat.setBlock_ok_iff.1 g1).2.2
    split at h
    · rename_i hl
      obtain ⟨b1, k1, h⟩ := bind_ok_iff.1 h
      obtain ⟨H2, g2, h⟩ := bind_ok_iff.1 h
      obtain ⟨b2, k2, h⟩ := bind_ok_iff.1 h
      obtain ⟨H3, g3, h⟩ := bind_ok_iff.1 h
      have d2 := (Mat.setBlock_ok_iff.1 g2).2.2
      have d3 := (Mat.setBlock_ok_iff.1 g3).2.2
      have hw : writtenAt n a = [(a.index, a.index + 3, 1 - a.alpha), (0, 9, a.alpha)] := by
        rw [writtenAt, if_neg hα, if_pos (by simpa [augSize] using hl)]
      refine ⟨H3, (Except.ok.inj h).symm, ?_, ?_, ?_, ?_⟩
      · rw [d3, d2, d1]; exact ⟨rfl, rfl⟩
      · rw [hw]
        intro x hx
        rcases List.mem_cons.1 hx with rfl | hx
        · exact ⟨by rw [block23_out g3 (by dsimp only; omega), block23_out g2 (by dsimp only; omega), block23_left g1],
            by rw [block23_out g3 (by dsimp only; omega), block23_out g2 (by dsimp only; omega), block23_right g1]⟩
        · rw [List.mem_singleton] at hx
          subst hx
          exact ⟨by rw [block23_out g3 (by dsimp only; omega), block23_of_block k1 g2], block23_of_block' k2 g3⟩
      · rw [hw]
        intro r c hc
        have c1 := hc _ (List.mem_cons_self ..)
        have c2 := hc _ (List.mem_cons_of_mem _ (List.mem_cons_self ..))
        simp only [InCols] at c1 c2
        rw [getBlock_out g3 (by omega), getBlock_out g2 (by omega), getBlock_out g1 (by simp only [augSize]; omega)]
      · intro r c hr
        rw [getBlock_out g3 (by omega), getBlock_out g2 (by omega), getBlock_out g1 (by omega)]
    · rename_i hl
      obtain ⟨H2, g2, h⟩ := bind_ok_iff.1 h
      have d2 := (Mat.setBlock_ok_iff.1 g2).2.2
      have hw : writtenAt n a = [(a.index, a.index + 3, 1 - a.alpha), (a.index + 6, a.index + 9, a.alpha)] := by
        rw [writtenAt, if_neg hα, if_neg (by simpa [augSize] using hl)]
      refine ⟨H2, (Except.ok.inj h).symm, ?_, ?_, ?_, ?_⟩
      · rw [d2, d1]; exact ⟨rfl, rfl⟩
      · rw [hw]
        intro x hx
        rcases List.mem_cons.1 hx with rfl | hx
        · exact ⟨by rw [block23_out g2 (by simp only [augSize]; omega), block23_left g1],
            by rw [block23_out g2 (by simp only [augSize]; omega), block23_right g1]⟩
        · rw [List.mem_singleton] at hx
          subst hx
          exact ⟨block23_left g2, block23_right g2⟩
      · rw [hw]
        intro r c hc
        have c1 := hc _ (List.mem_cons_self ..)
        have c2 := hc _ (List.mem_cons_of_mem _ (List.mem_cons_self ..))
        simp only [InCols] at c1 c2
        rw [getBlock_out g2 (by simp only [augSize]; omega), getBlock_out g1 (by simp only [augSize]; omega)]
      · intro r c hr
        rw [getBlock_out g2 (by omega), getBlock_out g1 (by omega)]
  · rename_i hα
    rw [ne_eq, not_not] at hα
    obtain ⟨H1, g1, h⟩ := bind_ok_iff.1 h
    have d1 := (Mat.setBlock_ok_iff.1 g1).2.2
    have hw : writtenAt n a = [(a.index, a.index + 3, 1)] := by rw [writtenAt, if_pos hα]
    refine ⟨H1, (Except.ok.inj h).symm, ?_, ?_, ?_, ?_⟩
    · rw [d1]; exact ⟨rfl, rfl⟩
    · rw [hw]
      intro x hx
      rw [List.mem_singleton] at hx
      subst hx
      exact ⟨by rw [block23_left' g1, one_smul], by rw [block23_right' g1, one_smul]⟩
    · rw [hw]
      intro r c hc
      have c1 := hc _ (List.mem_cons_self ..)
      simp only [InCols] at c1
      exact getBlock_out g1 (by simp only [augSize]; omega)
    · intro r c hr
      exact getBlock_out g1 (by omega)

theorem writtenAt_cols {n : Nat} {a : AugState K} {x : Nat × Nat × K} (hx : x ∈ writtenAt n a) :
    (x.1 = 0 ∧ x.2.1 = 9) ∨ (a.index ≤ x.1 ∧ a.index ≤ x.2.1) := by
  unfold writtenAt at hx
  split at hx
  · rw [List.mem_singleton] at hx
    subst hx
    dsimp only; omega
  · rcases List.mem_cons.1 hx with rfl | hx
    · dsimp only; omega
    · rw [List.mem_singleton] at hx
      split at hx <;> subst hx <;> dsimp only <;> omega

theorem observed_of {N : Num K} {u : MsckfUpdater K} {n cam i : Nat} {F : V3 K} {a : AugState K} {p : FeaturePoint K}
    {Hf Hc : Mat K} {res : Vec K} {out : Mat K × Mat K × Vec K}
    (h : u.observe N n cam i F a p (Hf, Hc, res) = .ok out) (hidx : a.alpha = 0 ∨ 18 ≤ a.index)
    (hcam : u.isCamExtrinsic = true → 18 ≤ cam ∧ (cam + 6 ≤ a.index ∨ (a.alpha = 0 ∧ a.index + 6 ≤ cam))) :
    Observed N u n cam i F a p Hf Hc res out.1 out.2.1 out.2.2 := by
  unfold MsckfUpdater.observe at h
  dsimp only at h
  obtain ⟨_, hg, h⟩ := bind_ok_iff.1 h
  rw [guardUB_ok_iff] at hg
  obtain ⟨Hf', h1, h⟩ := bind_ok_iff.1 h
  have d1 := (Mat.setBlock_ok_iff.1 h1).2.2
  have hres : ∀ r : V2 K, (⟨res.size, fun k => if k = 2 * i then r 0 else if k = 2 * i + 1 then r 1 else res.get k⟩ : Vec K).part2 (2 * i) = r := by
    intro r
    funext k
    fin_cases k
    · simp [Vec.part2]
    · simp [Vec.part2]
  split at h
  · rename_i he
    obtain ⟨H1, g1, h⟩ := bind_ok_iff.1 h
    obtain ⟨H2, g2, h⟩ := bind_ok_iff.1 h
    have e1 := (Mat.setBlock_ok_iff.1 g1).2.2
    have e2 := (Mat.setBlock_ok_iff.1 g2).2.2
    obtain ⟨Hc', rfl, k1, k2, k3, k4⟩ := observe_pose h hidx
    have hc := hcam he
    refine ⟨hg, rfl, by rw [d1]; exact ⟨rfl, rfl⟩, ?_, hres _, block23_in h1, fun _ => ?_, ?_, fun _ => ?_, fun x hx => (k2 x hx).2, ?_, ?_⟩
    · rw [k1.1, k1.2, e2, e1]; exact ⟨rfl, rfl⟩
    · have k5 : Hc'.block23 (2 * i) cam = H2.block23 (2 * i) cam := by
        funext x y
        refine k3 _ _ fun z hz => ?_
        have := y.2
        rcases hc.2 with hc2 | ⟨h0, hc2⟩
        · rcases writtenAt_cols hz with ⟨h3, h4⟩ | ⟨h3, h4⟩ <;> simp only [InCols] <;> omega
        · rw [writtenAt, if_pos h0, List.mem_singleton] at hz
          subst hz
          simp only [InCols]; omega
      rw [k5, block23_out g2 (by omega)]
      exact (block23_in g1).trans (by simp only [Matrix.neg_mul])
    · intro x hx
      rw [(k2 x hx).1, Matrix.mul_neg, smul_neg]
    · have k5 : Hc'.block23 (2 * i) (cam + 3) = H2.block23 (2 * i) (cam + 3) := by
        funext x y
        refine k3 _ _ fun z hz => ?_
        have := y.2
        rcases hc.2 with hc2 | ⟨h0, hc2⟩
        · rcases writtenAt_cols hz with ⟨h3, h4⟩ | ⟨h3, h4⟩ <;> simp only [InCols] <;> omega
        · rw [writtenAt, if_pos h0, List.mem_singleton] at hz
          subst hz
          simp only [InCols]; omega
      rw [k5]
      exact block23_in g2
    · intro r c hc1 hc2
      rw [k3 r c hc2]
      have hc1 : ¬ InCols c cam 6 := fun h => hc1 ⟨he, h⟩
      simp only [InCols] at hc1
      rw [getBlock_out g2 (by omega), getBlock_out g1 (by omega)]
    · intro r c hr
      refine ⟨getBlock_out h1 (by omega), ?_, ?_⟩
      · rw [k4 r c hr, getBlock_out g2 (by omega), getBlock_out g1 (by omega)]
      · show (if r = 2 * i then _ else if r = 2 * i + 1 then _ else res.get r) = _
        rw [if_neg (by omega), if_neg (by omega)]
  · rename_i he
    obtain ⟨Hc', rfl, k1, k2, k3, k4⟩ := observe_pose h hidx
    refine ⟨hg, rfl, by rw [d1]; exact ⟨rfl, rfl⟩, k1, hres _, block23_in h1, fun h => absurd h he, ?_, fun h => absurd h he,
      fun x hx => (k2 x hx).2, ?_, ?_⟩
    · intro x hx
      rw [(k2 x hx).1, Matrix.mul_neg, smul_neg]
    · intro r c hc1 hc2
      exact k3 r c hc2
    · intro r c hr
      refine ⟨getBlock_out h1 (by omega), k4 r c hr, ?_⟩
      show (if r = 2 * i then _ else if r = 2 * i + 1 then _ else res.get r) = _
      rw [if_neg (by omega), if_neg (by omega)]

/-- The rows of observation `i` in the finished arrays. -/
structure RowFacts (N : Num K) (u : MsckfUpdater K) (n cam i : Nat) (F : V3 K) (a : AugState K) (p : FeaturePoint K)
    (Hf Hc : Mat K) (res : Vec K) : Prop where
  residual : res.part2 (2 * i) = normalisePixel u.intr p.x p.y - project
    (u.angC.toMat.transpose.mulVec (a.ang.toMat.transpose.mulVec (F - a.pos) - u.posC))
  feature : Hf.block23 (2 * i) 0 = distortionJacobian (normalisePixel u.intr p.x p.y) u.intr * projectionJacobian
    (u.angC.toMat.transpose.mulVec (a.ang.toMat.transpose.mulVec (F - a.pos) - u.posC)) *
    (u.angC.toMat.transpose * a.ang.toMat.transpose)
  camera : u.isCamExtrinsic = true → Hc.block23 (2 * i) cam = -(distortionJacobian (normalisePixel u.intr p.x p.y) u.intr *
    projectionJacobian (u.angC.toMat.transpose.mulVec (a.ang.toMat.transpose.mulVec (F - a.pos) - u.posC)) *
    u.angC.toMat.transpose)
  pose : ∀ x ∈ writtenAt n a, Hc.block23 (2 * i) x.1 = -(x.2.2 • (distortionJacobian (normalisePixel u.intr p.x p.y) u.intr *
    projectionJacobian (u.angC.toMat.transpose.mulVec (a.ang.toMat.transpose.mulVec (F - a.pos) - u.posC)) *
    (u.angC.toMat.transpose * a.ang.toMat.transpose)))
  cameraAng : u.isCamExtrinsic = true → Hc.block23 (2 * i) (cam + 3) = distortionJacobian (normalisePixel u.intr p.x p.y) u.intr *
    projectionJacobian (u.angC.toMat.transpose.mulVec (a.ang.toMat.transpose.mulVec (F - a.pos) - u.posC)) *
    u.angC.toMat.transpose * skew (a.ang.toMat.transpose.mulVec (F - a.pos) - u.posC) * (N.quatJac u.angC).transpose
  poseAng : ∀ x ∈ writtenAt n a, Hc.block23 (2 * i) x.2.1 = x.2.2 • (distortionJacobian (normalisePixel u.intr p.x p.y) u.intr *
    projectionJacobian (u.angC.toMat.transpose.mulVec (a.ang.toMat.transpose.mulVec (F - a.pos) - u.posC)) *
    (u.angC.toMat.transpose * a.ang.toMat.transpose * skew (F - a.pos) * (N.quatJac a.ang).transpose))
  rest : ∀ r c, 2 * i ≤ r → r < 2 * i + 2 → ¬ (u.isCamExtrinsic = true ∧ InCols c cam 6) →
    (∀ x ∈ writtenAt n a, ¬ InCols c x.1 3 ∧ ¬ InCols c x.2.1 3) → Hc.get r c = 0

theorem RowFacts.of_same {N : Num K} {u : MsckfUpdater K} {n cam i : Nat} {F : V3 K} {a : AugState K} {p : FeaturePoint K}
    {Hf Hc Hf' Hc' : Mat K} {res res' : Vec K} (h : RowFacts N u n cam i F a p Hf Hc res)
    (hs : ∀ r c, 2 * i ≤ r → r < 2 * i + 2 → Hf'.get r c = Hf.get r c ∧ Hc'.get r c = Hc.get r c ∧ res'.get r = res.get r) :
    RowFacts N u n cam i F a p Hf' Hc' res' := by
  have h1 : ∀ c, Hf'.block23 (2 * i) c = Hf.block23 (2 * i) c := fun c => by
    funext x y; exact (hs _ _ (by omega) (by have := x.2; omega)).1
  have h2 : ∀ c, Hc'.block23 (2 * i) c = Hc.block23 (2 * i) c := fun c => by
    funext x y; exact (hs _ _ (by omega) (by have := x.2; omega)).2.1
  have h3 : res'.part2 (2 * i) = res.part2 (2 * i) := by
    funext x; exact (hs _ 0 (by omega) (by have := x.2; omega)).2.2
  exact ⟨by rw [h3]; exact h.residual, by rw [h1]; exact h.feature, fun e => by rw [h2]; exact h.camera e,
    fun x hx => by rw [h2]; exact h.pose x hx, fun e => by rw [h2]; exact h.cameraAng e,
    fun x hx => by rw [h2]; exact h.poseAng x hx, fun r c r1 r2 c1 c2 => by
      rw [(hs r c r1 r2).2.1]; exact h.rest r c r1 r2 c1 c2⟩

/-- The loop over the observations of a feature. -/
theorem observeLoop_rows (N : Num K) (u : MsckfUpdater K) (n cam : Nat) (F : V3 K) (ps : List (FeaturePoint K)) :
    ∀ (i : Nat) (e : Ekf K) (Hf Hc : Mat K) (res : Vec K) (out : Ekf K × Mat K × Mat K × Vec K),
      u.observeLoop N n cam F i ps e (Hf, Hc, res) = .ok out →
      (∀ p ∈ ps, ∀ a, e.poseFor N.toPrim u.id p = .ok a → (a.alpha = 0 ∨ 18 ≤ a.index) ∧
        (u.isCamExtrinsic = true → 18 ≤ cam ∧ (cam + 6 ≤ a.index ∨ (a.alpha = 0 ∧ a.index + 6 ≤ cam)))) →
      (∀ r c, 2 * i ≤ r → Hc.get r c = 0) →
      e.Looked out.1 ∧ (out.2.1.rows = Hf.rows ∧ out.2.1.cols = Hf.cols) ∧ (out.2.2.1.rows = Hc.rows ∧ out.2.2.1.cols = Hc.cols) ∧
      out.2.2.2.size = res.size ∧
      (∀ r c, r < 2 * i → out.2.1.get r c = Hf.get r c ∧ out.2.2.1.get r c = Hc.get r c ∧ out.2.2.2.get r = res.get r) ∧
      ∀ j p, ps[j]? = some p → ∃ a, e.poseFor N.toPrim u.id p = .ok a ∧
        RowFacts N u n cam (i + j) F a p out.2.1 out.2.2.1 out.2.2.2 := by
  induction ps with
  | nil =>
    intro i e Hf Hc res out h _ _
    simp only [MsckfUpdater.observeLoop, Except.ok.injEq] at h
    subst h
    exact ⟨.refl _, ⟨rfl, rfl⟩, ⟨rfl, rfl⟩, rfl, fun _ _ _ => ⟨rfl, rfl, rfl⟩, fun j p hj => by simp at hj⟩
  | cons p ps ih =>
    intro i e Hf Hc res out h hp hz
    unfold MsckfUpdater.observeLoop at h
    obtain ⟨⟨a, e1⟩, h1, h⟩ := bind_ok_iff.1 h
    obtain ⟨⟨Hf1, Hc1, res1⟩, h2, h⟩ := bind_ok_iff.1 h
    have hl := looked_getAugState h1
    have ha := getAugState_pose h1
    obtain ⟨q1, q2⟩ := hp p (List.mem_cons_self ..) a ha
    have ho := observed_of h2 q1 q2
    dsimp only at ho
    have hz1 : ∀ r c, 2 * (i + 1) ≤ r → Hc1.get r c = 0 := fun r c hr => by
      rw [(ho.other r c (by omega)).2.1]; exact hz r c (by omega)
    have := ih (i + 1) e1 Hf1 Hc1 res1 out h (fun q hq b hb => hp q (List.mem_cons_of_mem _ hq) b (by
      rw [← hb]; exact (poseFor_looked N.toPrim hl u.id q).symm)) hz1
    obtain ⟨g1, g2, g3, g4, g5, g6⟩ := this
    refine ⟨hl.trans g1, ?_, ?_, g4.trans ho.size, ?_, ?_⟩
    · exact ⟨g2.1.trans ho.fdim.1, g2.2.trans ho.fdim.2⟩
    · exact ⟨g3.1.trans ho.cdim.1, g3.2.trans ho.cdim.2⟩
    · intro r c hr
      obtain ⟨a1, a2, a3⟩ := g5 r c (by omega)
      obtain ⟨b1, b2, b3⟩ := ho.other r c (by omega)
      exact ⟨a1.trans b1, a2.trans b2, a3.trans b3⟩
    · intro j q hj
      cases j with
      | zero =>
        simp only [List.getElem?_cons_zero, Option.some.injEq] at hj
        subst hj
        refine ⟨a, ha, ?_⟩
        have hf : RowFacts N u n cam i F a p Hf1 Hc1 res1 :=
          ⟨ho.residual, ho.feature, ho.camera, ho.pose, ho.cameraAng, ho.poseAng, fun r c r1 r2 c1 c2 => by rw [ho.rest r c c1 c2]; exact hz r c r1⟩
        rw [add_zero]
        exact hf.of_same fun r c r1 r2 => g5 r c (by omega)
      | succ j =>
        simp only [List.getElem?_cons_succ] at hj
        obtain ⟨b, hb, hf⟩ := g6 j q hj
        refine ⟨b, by rw [← poseFor_looked N.toPrim hl u.id q]; exact hb, ?_⟩
        rw [show i + (j + 1) = i + 1 + j by omega]
        exact hf

end EkfCal
