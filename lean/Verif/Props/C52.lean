import Verif.Spec.Collections
import Verif.Lemmas.UMap
import Verif.Lemmas.Mat
import Verif.Lemmas.RealPrim
import Verif.Lemmas.Rotation
import Verif.Spec.Samples
import Mathlib.Tactic.Linarith
import Mathlib.Tactic.NormNum

/-!
# C52: the sum of two states
-/

namespace EkfCal
variable {K : Type} [Field K]

theorem UMap.touch_of_isSome {α : Type} {m : UMap α} {k : Nat} {d : α} (h : (m.find? k).isSome) : m.touch k d = m := by
  obtain ⟨v, hv⟩ := Option.isSome_iff_exists.1 h
  simp [UMap.touch, hv]

theorem addEach_find {α : Type} (add : α → α → α) (d : α) :
    ∀ (l r : UMap α) (k : Nat), (addEach add d l r).1.find? k = (l.find? k).map fun a => add a (r.getD k d)
  | [], _, _ => rfl
  | (k', a) :: l, r, k => by
    simp only [addEach, UMap.find?]
    by_cases h : k' = k
    · subst h; simp
    · rw [if_neg h, if_neg h, addEach_find add d l _ k, UMap.getD_touch]

theorem addEach_keys {α : Type} (add : α → α → α) (d : α) :
    ∀ (l r : UMap α), (addEach add d l r).1.map Prod.fst = l.map Prod.fst
  | [], _ => rfl
  | (k', a) :: l, r => by simp only [addEach, List.map_cons, addEach_keys add d l]

theorem addEach_right {α : Type} (add : α → α → α) (d : α) : ∀ (l r : UMap α), (∀ x ∈ l, (r.find? x.1).isSome) →
    (addEach add d l r).2 = r
  | [], _, _ => rfl
  | (k', a) :: l, r, h => by
    simp only [addEach]
    rw [UMap.touch_of_isSome (h _ List.mem_cons_self)]
    exact addEach_right add d l r fun x hx => h x (List.mem_cons_of_mem _ hx)

theorem addFids_spec : ∀ (l r : UMap (FidState K)), (∀ x ∈ l, (r.find? x.1).isSome) →
    ∃ m, addFids l r = .ok m ∧ m.map Prod.fst = l.map Prod.fst ∧
      ∀ k a, l.find? k = some a → ∃ b, r.find? k = some b ∧ m.find? k = some (a.addFid b)
  | [], _, _ => ⟨[], rfl, rfl, by simp [UMap.find?]⟩
  | (k', a) :: l, r, h => by
    obtain ⟨m, h1, h2, h3⟩ := addFids_spec l r fun x hx => h x (List.mem_cons_of_mem _ hx)
    obtain ⟨b, hb⟩ := Option.isSome_iff_exists.1 (h _ List.mem_cons_self)
    dsimp only at hb
    refine ⟨(k', a.addFid b) :: m, by simp [addFids, hb, h1], by simp [h2], ?_⟩
    intro k x hx
    simp only [UMap.find?] at hx ⊢
    by_cases hk : k' = k
    · subst hk
      simp only [if_true, Option.some.injEq] at hx ⊢
      subst hx
      exact ⟨b, hb, rfl⟩
    · simp only [if_neg hk] at hx ⊢
      exact h3 k x hx

theorem addWindow_spec : ∀ (w r : List (AugState K)), w.length ≤ r.length →
    addWindow w r = .ok (w.zipWith AugState.addAug r)
  | [], _, _ => rfl
  | _ :: _, [], h => by simp at h
  | a :: w, b :: r, h => by
    have := addWindow_spec w r (by simpa using h)
    simp [addWindow, this]

theorem addWindows_spec : ∀ (l r : UMap (List (AugState K))),
    (∀ x ∈ l, ∃ w', r.find? x.1 = some w' ∧ x.2.length ≤ w'.length) →
    ∃ m, addWindows l r = .ok (m, r) ∧ m.map Prod.fst = l.map Prod.fst ∧
      ∀ k w, l.find? k = some w → (∃ w', r.find? k = some w' ∧ m.find? k = some (w.zipWith AugState.addAug w'))
  | [], _, _ => ⟨[], rfl, rfl, by simp [UMap.find?]⟩
  | (k', a) :: l, r, h => by
    obtain ⟨m, h1, h2, h3⟩ := addWindows_spec l r fun x hx => h x (List.mem_cons_of_mem _ hx)
    obtain ⟨b, hb, hl⟩ := h _ List.mem_cons_self
    dsimp only at hb hl
    have ht : (match a with | [] => r | _ :: _ => r.touch k' []) = r := by
      cases a with
      | nil => rfl
      | cons _ _ => exact UMap.touch_of_isSome (by rw [hb]; rfl)
    refine ⟨(k', a.zipWith AugState.addAug b) :: m, ?_, by simp [h2], ?_⟩
    · simp only [addWindows, UMap.getD, hb, Option.getD_some, addWindow_spec a b hl, ok_bind]
      have ht' := ht
      cases a with
      | nil => simp only [h1, ok_bind, pure_res]
      | cons x xs => dsimp only at ht'; simp only [ht', h1, ok_bind, pure_res]
    · intro k x hx
      simp only [UMap.find?] at hx ⊢
      by_cases hk : k' = k
      · subst hk
        simp only [if_true, Option.some.injEq] at hx ⊢
        subst hx
        exact ⟨b, hb, rfl⟩
      · simp only [if_neg hk] at hx ⊢
        exact h3 k x hx

theorem UMap.find_of_mem {α : Type} {m : UMap α} {x : Nat × α} (h : x ∈ m) : ∃ a, m.find? x.1 = some a := by
  induction m with
  | nil => cases h
  | cons y m ih =>
    simp only [UMap.find?]
    by_cases hk : y.1 = x.1
    · exact ⟨y.2, by rw [if_pos hk]⟩
    · rw [if_neg hk]
      rcases List.mem_cons.1 h with rfl | h
      · exact absurd rfl hk
      · exact ih h

/-- **Adding a state whose structure covers the left one** adds every vector, puts every right orientation in front of the
left one, and leaves the right operand as it is. -/
theorem C52_partial (l r : State K) (hl : UMap.Sorted l.augs) (h : l.CoveredBy r) :
    ∃ s, l.addState r = .ok (s, r) ∧ s.body = l.body.addBody r.body ∧
      (∀ k a, l.imus.find? k = some a → ∃ b, r.imus.find? k = some b ∧ s.imus.find? k = some (a.addImu b)) ∧
      (∀ k a, l.gpss.find? k = some a → ∃ b, r.gpss.find? k = some b ∧ s.gpss.find? k = some (a.addGps b)) ∧
      (∀ k a, l.cams.find? k = some a → ∃ b, r.cams.find? k = some b ∧ s.cams.find? k = some (a.addCam b)) ∧
      (∀ k a, l.fids.find? k = some a → ∃ b, r.fids.find? k = some b ∧ s.fids.find? k = some (a.addFid b)) ∧
      (∀ k a, l.augs.find? k = some a → ∃ b, r.augs.find? k = some b ∧
        s.augs.find? k = some (a.zipWith AugState.addAug b)) := by
  obtain ⟨f, f1, _, f3⟩ := addFids_spec l.fids r.fids (by
    intro x hx; obtain ⟨a, ha⟩ := UMap.find_of_mem hx; exact h.fids _ a ha)
  obtain ⟨g, g1, _, g3⟩ := addWindows_spec l.augs r.augs (by
    intro x hx
    exact h.augs _ _ ((UMap.find?_eq_some_iff hl).2 hx))
  have e1 := addEach_right ImuState.addImu ImuState.default l.imus r.imus (by
    intro x hx; obtain ⟨a, ha⟩ := UMap.find_of_mem hx; exact h.imus _ a ha)
  have e2 := addEach_right GpsState.addGps GpsState.default l.gpss r.gpss (by
    intro x hx; obtain ⟨a, ha⟩ := UMap.find_of_mem hx; exact h.gpss _ a ha)
  have e3 := addEach_right CamState.addCam CamState.default l.cams r.cams (by
    intro x hx; obtain ⟨a, ha⟩ := UMap.find_of_mem hx; exact h.cams _ a ha)
  refine ⟨⟨l.body.addBody r.body, (addEach ImuState.addImu ImuState.default l.imus r.imus).1,
    (addEach GpsState.addGps GpsState.default l.gpss r.gpss).1, (addEach CamState.addCam CamState.default l.cams r.cams).1,
    f, g⟩, ?_, rfl, ?_, ?_, ?_, f3, g3⟩
  · unfold State.addState
    simp only [f1, g1, ok_bind, e1, e2, e3]
    rfl
  · intro k a ha
    obtain ⟨b, hb⟩ := Option.isSome_iff_exists.1 (h.imus k a ha)
    exact ⟨b, hb, by rw [addEach_find, ha]; simp [UMap.getD, hb]⟩
  · intro k a ha
    obtain ⟨b, hb⟩ := Option.isSome_iff_exists.1 (h.gpss k a ha)
    exact ⟨b, hb, by rw [addEach_find, ha]; simp [UMap.getD, hb]⟩
  · intro k a ha
    obtain ⟨b, hb⟩ := Option.isSome_iff_exists.1 (h.cams k a ha)
    exact ⟨b, hb, by rw [addEach_find, ha]; simp [UMap.getD, hb]⟩

/-- Adding the exported vector of a body with unit orientation and angle in the convertible range, in the way corrections
are applied: orientation of the right operand is put behind. -/
theorem C52_vector_order (l r : BodyState ℝ) (hq : rotVecToQuat (quatToRotVec r.ang) = r.ang) :
    ∃ b, l.addVec realPrim (r.toVector realPrim) = .ok b ∧ b.ang = l.ang.mul r.ang ∧
      (l.addBody r).ang = r.ang.mul l.ang ∧ b.pos = (l.addBody r).pos := by
  unfold BodyState.addVec
  simp only [Vec.segment3, BodyState.toVector, Vec.ofV3s, List.length_cons, List.length_nil, Nat.reduceAdd, Nat.reduceMul,
    Nat.reduceLeDiff, if_true, ok_bind, pure_res]
  refine ⟨_, rfl, ?_, rfl, ?_⟩
  · change l.ang.mul (rotVecToQuat _) = _
    rw [← hq]
    congr 2
    rw [hq]
    funext i
    fin_cases i <;> rfl
  · simp only [BodyState.addBody]
    funext i
    fin_cases i <;> simp [Fin.ofNat]

/-- **Adding a state and adding its exported vector differ**: a half turn about x and a rotation about y. -/
theorem C52_order_violated : ¬ ∀ (l r b : BodyState ℝ), r.ang.normSq = 1 → l.ang.normSq = 1 →
    rotVecToQuat (quatToRotVec r.ang) = r.ang → l.addVec realPrim (r.toVector realPrim) = .ok b →
    b.ang = (l.addBody r).ang := by
  intro h
  have hn : V3.norm (![0, 1, 0] : V3 ℝ) = 1 := by
    apply V3.norm_eq_of_sq zero_le_one
    simp
  have hl : 1 / 10 ^ 9 < V3.norm (![0, 1, 0] : V3 ℝ) := by rw [hn]; norm_num
  have hr : rotVecToQuat (quatToRotVec (rotVecToQuat ![0, 1, 0])) = rotVecToQuat ![0, 1, 0] := by
    rw [quatToRotVec_rotVecToQuat hl (by rw [hn]; linarith [Real.two_le_pi])]
  have key : ∀ q p : Quat ℝ, p.normSq = 1 → q.normSq = 1 → rotVecToQuat (quatToRotVec p) = p → q.mul p = p.mul q := by
    intro q p h0 h1 hp
    obtain ⟨b, h2, h3, h4, _⟩ := C52_vector_order ⟨0, 0, 0, q, 0, 0, 0⟩ ⟨0, 0, 0, p, 0, 0, 0⟩ hp
    have := h ⟨0, 0, 0, q, 0, 0, 0⟩ ⟨0, 0, 0, p, 0, 0, 0⟩ b h0 h1 hp h2
    rw [h3, h4] at this
    exact this
  have g := key ⟨0, 1, 0, 0⟩ (rotVecToQuat ![0, 1, 0]) (rotVecToQuat_unit _) (by simp [Quat.normSq]) hr
  rw [rotVecToQuat_large hl, hn] at g
  have g' := congrArg Quat.z g
  simp [Quat.mul, Quat.ofAngleAxis] at g'
  have hs : 0 < Real.sin (2⁻¹) := Real.sin_pos_of_pos_of_lt_pi (by norm_num) (by linarith [Real.two_le_pi])
  linarith

/-- **The right operand changes** when it lacks a sensor of the left one: it gains it. -/
theorem C52_right_violated : ¬ ∀ (l r s r' : State ℚ), l.addState r = .ok (s, r') → r'.imus.length = r.imus.length := by
  intro h
  have := h { State.default with imus := [(1, ImuState.default)] } State.default _ _ rfl
  simp [State.default, addEach, UMap.touch, UMap.find?, UMap.insert] at this

/-- **A shorter window on the right is read beyond its end.** -/
theorem C52_window_violated : ∃ l r : State ℚ, l.addState r = .error .outOfRange :=
  ⟨{ State.default with augs := [(0, [AugState.default])] }, State.default, rfl⟩

/-- **A marker missing on the right is read uninitialised.** -/
theorem C52_marker_violated : ∃ l r : State ℚ, l.addState r = .error .uninitialised :=
  ⟨{ State.default with fids := [(4, Samples.fid 4)] }, State.default, rfl⟩

/-- Two states with an IMU, a camera and a clone. -/
example : (⟨BodyState.default, [(1, Samples.imu true true)], [], [(2, Samples.cam)], [(4, Samples.fid 4)],
      [(2, [AugState.default])]⟩ : State ℚ).CoveredBy
    ⟨BodyState.default, [(1, Samples.imu true true), (3, Samples.imu true true)], [], [(2, Samples.cam)],
      [(4, Samples.fid 4)], [(2, [AugState.default, AugState.default])]⟩ := by
  constructor <;> intro k s h <;> simp only [UMap.find?] at h ⊢ <;> (try split_ifs at h ⊢) <;> try simp_all

end EkfCal
