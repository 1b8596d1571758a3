import Verif.Model.Types
import Verif.Lemmas.Mat
import Mathlib.Tactic.Ring
import Mathlib.Tactic.FinCases

/-! # Adding the zero vector -/

namespace EkfCal
variable {K : Type} [Field K]

theorem Quat.mul_one' (q : Quat K) : q.mul Quat.one = q := by
  ext <;> simp [Quat.mul, Quat.one]

theorem Vec.segment3_zero {v : Vec K} (hv : ∀ i, v.get i = 0) {i : Nat} {p : V3 K} (h : v.segment3 i = .ok p) :
    p = 0 := by
  unfold Vec.segment3 at h
  split at h
  · cases h; funext k; fin_cases k <;> simp [hv]
  · cases h

theorem bind_ok {α β : Type} {x : Res α} {f : α → Res β} {b : β} (h : (x >>= f) = .ok b) : ∃ a, x = .ok a ∧ f a = .ok b := by
  cases x with
  | ok a => exact ⟨a, rfl, h⟩
  | error u => cases h

section
variable {N : Prim K} (hN : N.rotVecToQuat 0 = Quat.one) {v : Vec K} (hv : ∀ i, v.get i = 0)
include hN hv

theorem BodyState.addVec_zero {b b' : BodyState K} (h : b.addVec N v = .ok b') : b' = b := by
  unfold BodyState.addVec at h
  obtain ⟨a1, h1, h⟩ := bind_ok h
  obtain ⟨a2, h2, h⟩ := bind_ok h
  obtain ⟨a3, h3, h⟩ := bind_ok h
  obtain ⟨a4, h4, h⟩ := bind_ok h
  obtain ⟨a5, h5, h⟩ := bind_ok h
  obtain ⟨a6, h6, h⟩ := bind_ok h
  cases h
  simp [Vec.segment3_zero hv h1, Vec.segment3_zero hv h2, Vec.segment3_zero hv h3, Vec.segment3_zero hv h4,
    Vec.segment3_zero hv h5, Vec.segment3_zero hv h6, hN, Quat.mul_one']

theorem ImuState.addVecAt_zero {s s' : ImuState K} {i j : Nat} (h : s.addVecAt N v i = .ok (s', j)) : s' = s := by
  unfold ImuState.addVecAt at h
  rcases s with ⟨a, b, c, d, p, q, ab, ob, sz, ix, ii, ie, ext, int⟩
  cases ext <;> cases int <;>
    simp only [if_true, Bool.false_eq_true, if_false, ok_bind, pure_res, bind_ok_iff, Except.ok.injEq, Prod.mk.injEq] at h
  · exact h.1.symm
  · obtain ⟨x, hx, y, hy, h, _⟩ := h
    rw [← h]
    simp [Vec.segment3_zero hv hx, Vec.segment3_zero hv hy]
  · obtain ⟨x, hx, y, hy, h, _⟩ := h
    rw [← h]
    simp [Vec.segment3_zero hv hx, Vec.segment3_zero hv hy, hN, Quat.mul_one']
  · obtain ⟨x, hx, y, hy, x', hx', y', hy', h, _⟩ := h
    rw [← h]
    simp [Vec.segment3_zero hv hx, Vec.segment3_zero hv hy, Vec.segment3_zero hv hx', Vec.segment3_zero hv hy', hN,
      Quat.mul_one']

omit hN in
theorem GpsState.addVecAt_zero {s s' : GpsState K} {i j : Nat} (h : s.addVecAt v i = .ok (s', j)) : s' = s := by
  unfold GpsState.addVecAt at h
  split at h
  · obtain ⟨p, hp, h1⟩ := bind_ok h
    cases h1
    simp [Vec.segment3_zero hv hp]
  · cases h; rfl

theorem CamState.addVecAt_zero {s s' : CamState K} {i j : Nat} (h : s.addVecAt N v i = .ok (s', j)) : s' = s := by
  unfold CamState.addVecAt at h
  split at h
  · obtain ⟨p, hp, h1⟩ := bind_ok h
    obtain ⟨q, hq, h1⟩ := bind_ok h1
    cases h1
    simp [Vec.segment3_zero hv hp, Vec.segment3_zero hv hq, hN, Quat.mul_one']
  · cases h; rfl

theorem FidState.addVecAt_zero {s s' : FidState K} {i j : Nat} (h : s.addVecAt N v i = .ok (s', j)) : s' = s := by
  unfold FidState.addVecAt at h
  split at h
  · obtain ⟨p, hp, h1⟩ := bind_ok h
    obtain ⟨q, hq, h1⟩ := bind_ok h1
    cases h1
    simp [Vec.segment3_zero hv hp, Vec.segment3_zero hv hq, hN, Quat.mul_one']
  · cases h; rfl

theorem AugState.addVecAt_zero {s s' : AugState K} {i j : Nat} (h : s.addVecAt N v i = .ok (s', j)) : s' = s := by
  unfold AugState.addVecAt at h
  obtain ⟨p, hp, h1⟩ := bind_ok h
  obtain ⟨q, hq, h1⟩ := bind_ok h1
  cases h1
  simp [Vec.segment3_zero hv hp, Vec.segment3_zero hv hq, hN, Quat.mul_one']

end

theorem loopIdx_id {α : Type} {f : α → Nat → Res (α × Nat)} (hf : ∀ a i a' j, f a i = .ok (a', j) → a' = a) :
    ∀ (l : List α) (i : Nat) (l' : List α) (j : Nat), loopIdx f l i = .ok (l', j) → l' = l
  | [], _, _, _, h => by cases h; rfl
  | a :: l, i, l', j, h => by
    unfold loopIdx at h
    obtain ⟨⟨a', i'⟩, h1, h⟩ := bind_ok h
    obtain ⟨⟨r, j'⟩, h2, h⟩ := bind_ok h
    cases h
    rw [hf _ _ _ _ h1, loopIdx_id hf l _ _ _ h2]

theorem loopMap_id {α : Type} {f : α → Nat → Res (α × Nat)} (hf : ∀ a i a' j, f a i = .ok (a', j) → a' = a)
    {m m' : UMap α} {i j : Nat} (h : loopMap f m i = .ok (m', j)) : m' = m := by
  refine loopIdx_id (fun kv i kv' j h => ?_) m i m' j h
  obtain ⟨⟨v, _⟩, h1, h⟩ := bind_ok h
  cases h
  rw [hf _ _ _ _ h1]

/-- Adding a vector of zeros changes nothing. -/
theorem State.addVec_zero {N : Prim K} (hN : N.rotVecToQuat 0 = Quat.one) {v : Vec K} (hv : ∀ i, v.get i = 0)
    {s s' : State K} (h : s.addVec N v = .ok s') : s' = s := by
  unfold State.addVec at h
  obtain ⟨w, hw, h⟩ := bind_ok h
  have hw0 : ∀ i, w.get i = 0 := by
    unfold Vec.segment at hw
    split at hw
    · cases hw; intro i; exact hv _
    · cases hw
  obtain ⟨b, hb, h⟩ := bind_ok h
  obtain ⟨⟨m1, i1⟩, h1, h⟩ := bind_ok h
  obtain ⟨⟨m2, i2⟩, h2, h⟩ := bind_ok h
  obtain ⟨⟨m3, i3⟩, h3, h⟩ := bind_ok h
  obtain ⟨⟨m4, i4⟩, h4, h⟩ := bind_ok h
  obtain ⟨⟨m5, i5⟩, h5, h⟩ := bind_ok h
  cases h
  rw [BodyState.addVec_zero hN hw0 hb,
    loopMap_id (fun _ _ _ _ h => ImuState.addVecAt_zero hN hv h) h1,
    loopMap_id (fun _ _ _ _ h => GpsState.addVecAt_zero hv h) h2,
    loopMap_id (fun _ _ _ _ h => CamState.addVecAt_zero hN hv h) h3,
    loopMap_id (fun _ _ _ _ h => FidState.addVecAt_zero hN hv h) h4,
    loopMap_id (fun w i w' j h => loopIdx_id (fun _ _ _ _ h => AugState.addVecAt_zero hN hv h) w i w' j h) h5]

end EkfCal
