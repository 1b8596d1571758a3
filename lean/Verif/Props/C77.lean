import Verif.Model.Waypoints
import Verif.Spec.Waypoints
import Verif.Spec.LawSamples
import Verif.Lemmas.Smoother
import Verif.Props.C41
import Verif.Props.C56
import Mathlib.LinearAlgebra.Lagrange

/-!
# C77: a simulated body goes through its configured waypoints
-/

namespace EkfCal
open SplineTruth

section
variable {K : Type} [Field K] [LinearOrder K]

omit [LinearOrder K] [Field K] in
theorem pointAt_ok {flat : List K} {k : Nat} (h : 3 * k + 2 < flat.length) :
    ∃ p, pointAt flat k = .ok p ∧ IsWaypoint flat k p := by
  refine ⟨![flat[3 * k], flat[3 * k + 1], flat[3 * k + 2]], ?_, ?_⟩
  · rw [pointAt, readAt_lt (by omega), ok_bind, readAt_lt (by omega), ok_bind, readAt_lt (by omega), ok_bind]
    rfl
  · exact ⟨by simp [List.getElem?_eq_getElem (show 3 * k < flat.length by omega)],
      by simp [List.getElem?_eq_getElem (show 3 * k + 1 < flat.length by omega)],
      by simp [List.getElem?_eq_getElem h]⟩

theorem waypointLoop_ok (poses angles : List K) (pe ae : V3 K) (zp za : Nat → V3 K) (n i : Nat)
    (hp : 3 * (i + n) ≤ poses.length) (ha : 3 * (i + n) ≤ angles.length) :
    ∃ ps as, waypointLoop poses angles pe ae zp za n i = .ok (ps, as) ∧ ps.length = n ∧ as.length = n ∧
      ∀ k, k < n → ∃ p a, IsWaypoint poses (i + k) p ∧ IsWaypoint angles (i + k) a ∧
        ps[k]? = some (if i + k ≠ 0 then vecNormRand p pe (zp (i + k)) else p) ∧
        as[k]? = some (if i + k ≠ 0 then vecNormRand a ae (za (i + k)) else a) := by
  induction n generalizing i with
  | zero => exact ⟨[], [], rfl, rfl, rfl, fun k hk => absurd hk (Nat.not_lt_zero k)⟩
  | succ n ih =>
    obtain ⟨p, hp1, hp2⟩ := pointAt_ok (flat := poses) (k := i) (by omega)
    obtain ⟨a, ha1, ha2⟩ := pointAt_ok (flat := angles) (k := i) (by omega)
    obtain ⟨ps, as, h, hl, hl', hk⟩ := ih (i + 1) (by omega) (by omega)
    refine ⟨(if i ≠ 0 then vecNormRand p pe (zp i) else p) :: ps, (if i ≠ 0 then vecNormRand a ae (za i) else a) :: as,
      ?_, by simp [hl], by simp [hl'], ?_⟩
    · rw [waypointLoop, hp1, ok_bind, ha1, ok_bind, h, ok_bind]
      rfl
    · intro k hkn
      cases k with
      | zero => exact ⟨p, a, hp2, ha2, rfl, rfl⟩
      | succ k =>
        obtain ⟨p', a', h1, h2, h3, h4⟩ := hk k (by omega)
        have : i + 1 + k = i + (k + 1) := by omega
        rw [this] at h1 h2 h3 h4
        exact ⟨p', a', h1, h2, h3, h4⟩

/-- The control points: one for each three numbers that both lists have, the first as configured, each later one with its
drawn errors. -/
theorem C77_points (poses angles posErrs angErrs : List K) (zp za : Nat → V3 K) (hpe : posErrs.length = 3)
    (hae : angErrs.length = 3) :
    ∃ ps as, waypoints poses angles posErrs angErrs zp za = .ok (ps, as) ∧
      ps.length = min poses.length angles.length / 3 ∧ as.length = min poses.length angles.length / 3 ∧
      ∀ k, k < min poses.length angles.length / 3 → ∃ p q a b, IsWaypoint poses k p ∧ IsWaypoint angles k a ∧
        ps[k]? = some q ∧ as[k]? = some b ∧ (k = 0 → q = p ∧ b = a) ∧
        (k ≠ 0 → Spread posErrs (zp k) p q ∧ Spread angErrs (za k) a b) := by
  have hv (l : List K) (h : l.length = 3) : stdToV3 l = .ok fun i : Fin 3 => l.getD i 0 := by
    simp [stdToV3, stdToEigVec, guardUB, h]
  obtain ⟨ps, as, h, hl, hl', hk⟩ := waypointLoop_ok poses angles (fun i : Fin 3 => posErrs.getD i 0)
    (fun i : Fin 3 => angErrs.getD i 0) zp za (min poses.length angles.length / 3) 0 (by omega) (by omega)
  refine ⟨ps, as, ?_, hl, hl', ?_⟩
  · rw [waypoints, hv _ hpe, ok_bind, hv _ hae, ok_bind, h]
  · intro k hkn
    obtain ⟨p, a, h1, h2, h3, h4⟩ := hk k hkn
    rw [Nat.zero_add] at h1 h2 h3 h4
    refine ⟨p, _, a, _, h1, h2, h3, h4, ?_, ?_⟩
    · rintro rfl
      simp
    · intro h0
      rw [if_pos h0, if_pos h0]
      have hs (l : List K) (h : l.length = 3) (z x : V3 K) :
          Spread l z x (vecNormRand x (fun i : Fin 3 => l.getD i 0) z) := by
        intro i
        refine ⟨l[(i : Nat)], by simp [h], ?_⟩
        simp [vecNormRand, List.getD_eq_getElem?_getD, h]
      exact ⟨hs _ hpe _ _, hs _ hae _ _⟩

end

section
variable {K : Type} [Field K] [LinearOrder K] [IsStrictOrderedRing K] [FloorRing K]

theorem forall₂_get {α β : Type} {R : α → β → Prop} {l : List α} {m : List β} (h : List.Forall₂ R l m) {k : Nat} {a : α}
    {b : β} (ha : l[k]? = some a) (hb : m[k]? = some b) : R a b := by
  induction h generalizing k with
  | nil => simp at ha
  | cons hr _ ih =>
    cases k with
    | zero =>
      simp only [List.getElem?_cons_zero, Option.some.injEq] at ha hb
      subst ha hb
      exact hr
    | succ k => exact ih (by simpa using ha) (by simpa using hb)

/-- The tables of an engine, at a time of the sample grid. -/
theorem new_on_grid (times : List K) (poses angles : List (V3 K)) (stationary maxTime rate first last : K)
    (hs : times.Pairwise (· < ·)) (hf : times[0]? = some first) (hl : times.getLast? = some last)
    (hp : times.length ≤ poses.length) (ha : times.length ≤ angles.length)
    (hr : 0 < rate) (h2 : 2 ≤ ⌈maxTime * rate⌉) (hmax : ⌈maxTime * rate⌉ < 2 ^ 32) :
    ∃ s : Smoother K, Smoother.new times poses angles stationary maxTime rate = .ok s ∧ s.stationary = stationary ∧
      s.maxTime = maxTime ∧ ∀ (toQuat : V3 K → Quat K) (t : K) (m : Nat), 0 ≤ t - stationary → 0 ≤ stationary →
        t * rate = m → (m : Int) + 1 < ⌈maxTime * rate⌉ →
        ∃ v a, s.body s.pos t = .ok v ∧ s.bodyAngle toQuat t = .ok (toQuat a) ∧
          SampleOf times poses first last t v ∧ SampleOf times angles first last t a := by
  obtain ⟨n, hn⟩ := Int.eq_ofNat_of_zero_le (show 0 ≤ ⌈maxTime * rate⌉ by omega)
  have hn2 : 2 ≤ n := by omega
  set time : List K := (List.range n).map fun i : Nat => (i : K) / rate with htime
  have htl : time.length = n := by simp [htime]
  have hts : time.Pairwise (· < ·) := by
    rw [htime, List.pairwise_map]
    refine (List.pairwise_lt_range (n := n)).imp fun {i j} h => ?_
    have : (i : K) < j := by exact_mod_cast h
    exact div_lt_div_of_pos_right this hr
  have htm : time.Pairwise (· ≤ ·) := hts.imp fun h => h.le
  obtain ⟨pos, hpos, hposl, hpos2⟩ := C41_interpolate_partial time times poses first last hs htm hf hl hp
  obtain ⟨ang, hang, hangl, hang2⟩ := C41_interpolate_partial time times angles first last hs htm hf hl ha
  obtain ⟨vel, hvel, hvell, -⟩ := C41_derivative_partial time pos hts (by omega) (by omega)
  obtain ⟨acc, hacc, haccl, -⟩ := C41_derivative_partial time vel hts (by omega) (by omega)
  obtain ⟨angVel, hav, havl, -⟩ := C41_derivative_partial time ang hts (by omega) (by omega)
  obtain ⟨angAcc, haa, haal, -⟩ := C41_derivative_partial time angVel hts (by omega) (by omega)
  refine ⟨⟨stationary, maxTime, rate, time, pos, vel, acc, ang, angVel, angAcc⟩, ?_, rfl, rfl, ?_⟩
  · rw [Smoother.new]
    dsimp only
    rw [hn, guardUB_true (by constructor <;> omega), ok_bind, Int.toNat_natCast, ← htime, hpos, ok_bind, hang, ok_bind, hvel,
      ok_bind, hacc, ok_bind, hav, ok_bind, haa, ok_bind]
    rfl
  · intro toQuat t m ht0 hst0 htr hm
    have hmn : m + 1 < n := by omega
    have hmt : t * rate ≤ maxTime * rate := by
      have h5 : ((⌈maxTime * rate⌉ : Int) : K) < maxTime * rate + 1 := Int.ceil_lt_add_one _
      have h6 : ((m : Int) : K) + 1 < ((⌈maxTime * rate⌉ : Int) : K) := by exact_mod_cast hm
      rw [Int.cast_natCast] at h6
      linarith
    have hval : (⟨stationary, maxTime, rate, time, pos, vel, acc, ang, angVel, angAcc⟩ : Smoother K).isTimeInvalid
        (t - stationary) = false := by
      simp only [Smoother.isTimeInvalid, decide_eq_false_iff_not, not_or, not_lt, gt_iff_lt]
      exact ⟨ht0, by linarith [le_of_mul_le_mul_right hmt hr]⟩
    have hq (table : List (V3 K)) (hlen : table.length = n) :
        (⟨stationary, maxTime, rate, time, pos, vel, acc, ang, angVel, angAcc⟩ : Smoother K).interpolated t table =
          .ok table[m] := by
      rw [Smoother.interpolated]
      dsimp only
      rw [htr, truncInt_nonneg (Nat.cast_nonneg m), Int.floor_natCast, guardUB_true (by constructor <;> omega), ok_bind,
        Int.toNat_natCast, readAt_lt (by omega), ok_bind, Nat.mod_eq_of_lt (by omega), readAt_lt (by omega), ok_bind]
      simp
    have htime' : time[m]? = some t := by
      rw [htime, List.getElem?_map, List.getElem?_range (by omega)]
      simp only [Option.map_some, Option.some.injEq]
      rw [← htr]
      field_simp
    refine ⟨pos[m], ang[m], ?_, ?_, forall₂_get hpos2 htime' (List.getElem?_eq_getElem (by omega)),
      forall₂_get hang2 htime' (List.getElem?_eq_getElem (by omega))⟩
    · rw [Smoother.body, hval]
      exact hq pos (by omega)
    · rw [Smoother.bodyAngle, hval]
      simp only [Bool.false_eq_true, if_false]
      rw [hq ang (by omega), ok_bind]
      rfl

omit [Field K] [IsStrictOrderedRing K] [FloorRing K] in
theorem times_lt {times : List K} (hs : times.Pairwise (· < ·)) {i j : Nat} {a b : K} (hi : times[i]? = some a)
    (hj : times[j]? = some b) (h : i < j) : a < b := by
  obtain ⟨h1, rfl⟩ := List.getElem?_eq_some_iff.1 hi
  obtain ⟨h2, rfl⟩ := List.getElem?_eq_some_iff.1 hj
  exact List.pairwise_iff_getElem.1 hs i j h1 h2 h

omit [IsStrictOrderedRing K] [FloorRing K] in
/-- A sample at the time of an inner control point is that point. -/
theorem sample_at {times : List K} {vectors : List (V3 K)} {first last t : K} {v q : V3 K} (hs : times.Pairwise (· < ·))
    (hf : times[0]? = some first) (hl : times.getLast? = some last) {k : Nat} (hk : times[k]? = some t)
    (hq : vectors[k]? = some q) (h0 : 0 < k) (h1 : k + 1 < times.length) (h : SampleOf times vectors first last t v) :
    v = q := by
  rw [List.getLast?_eq_getElem?] at hl
  obtain ⟨j, t0, t1, a, b, hj0, hj1, ha, hb, hle0, hle1, heq⟩ := h.1 ⟨times_lt hs hf hk h0, times_lt hs hk hl (by omega)⟩
  have hlt := times_lt hs hj0 hj1 (Nat.lt_succ_self j)
  have hjk : j = k ∨ j + 1 = k := by
    by_contra hcon
    push Not at hcon
    rcases lt_trichotomy j k with h | h | h
    · exact absurd (times_lt hs hj1 hk (by omega)) (not_lt.2 hle1)
    · exact hcon.1 h
    · exact absurd (times_lt hs hk hj0 h) (not_lt.2 hle0)
  rcases hjk with rfl | rfl
  · rw [hj0] at hk; cases hk
    rw [ha] at hq; cases hq
    rw [sub_self, zero_smul, smul_eq_zero] at heq
    rcases heq with h | h
    · exact absurd h (sub_ne_zero.2 hlt.ne')
    · exact sub_eq_zero.1 h
  · rw [hj1] at hk; cases hk
    rw [hb] at hq; cases hq
    have := smul_right_injective _ (sub_ne_zero.2 hlt.ne') heq
    exact sub_left_injective this

/-- The tabulated truth passes every inner waypoint at its configured time, if that time is one of the sample times, after the
stationary time and before the end: position and orientation are those of the waypoint, with its drawn errors. -/
theorem C77_tabulated_partial (times poses angles posErrs angErrs : List K) (zp za : Nat → V3 K)
    (stationary maxTime rate : K) (hpe : posErrs.length = 3) (hae : angErrs.length = 3)
    (hs : times.Pairwise (· < ·)) (h0 : times ≠ []) (hn : 3 * times.length ≤ min poses.length angles.length)
    (hr : 0 < rate) (h2 : 2 ≤ ⌈maxTime * rate⌉) (hmax : ⌈maxTime * rate⌉ < 2 ^ 32) (hst : 0 ≤ stationary) :
    ∃ s : Smoother K, Smoother.ofConfig times poses angles posErrs angErrs zp za stationary maxTime rate = .ok s ∧
      ∀ (toQuat : V3 K → Quat K) (k : Nat) (t : K) (p a : V3 K) (m : Nat), times[k]? = some t → 0 < k → k + 1 < times.length →
        IsWaypoint poses k p → IsWaypoint angles k a → stationary ≤ t → t * rate = m → (m : Int) + 1 < ⌈maxTime * rate⌉ →
        ∃ q b, s.body s.pos t = .ok q ∧ s.bodyAngle toQuat t = .ok (toQuat b) ∧
          Spread posErrs (zp k) p q ∧ Spread angErrs (za k) a b := by
  obtain ⟨ps, as, hw, hlp, hla, hpts⟩ := C77_points poses angles posErrs angErrs zp za hpe hae
  obtain ⟨first, hf⟩ : ∃ x, times[0]? = some x := by
    cases times with
    | nil => exact absurd rfl h0
    | cons x _ => exact ⟨x, rfl⟩
  obtain ⟨last, hl⟩ : ∃ x, times.getLast? = some x := ⟨_, List.getLast?_eq_getLast_of_ne_nil h0⟩
  obtain ⟨s, hs1, hs2, hs3, hq⟩ := new_on_grid times ps as stationary maxTime rate first last hs hf hl (by omega) (by omega)
    hr h2 hmax
  refine ⟨s, by rw [Smoother.ofConfig, hw, ok_bind]; exact hs1, ?_⟩
  intro toQuat k t p a m hk hk0 hk1 hp ha hst' htr hm
  obtain ⟨v, w, hv, hw', hv1, hw1⟩ := hq toQuat t m (sub_nonneg.2 hst') hst htr hm
  obtain ⟨p', q, a', b, hp', ha', hq1, hb1, -, hne⟩ := hpts k (by omega)
  have e (l : List K) (x y : V3 K) (hx : IsWaypoint l k x) (hy : IsWaypoint l k y) : x = y := by
    obtain ⟨x0, x1, x2⟩ := hx
    obtain ⟨y0, y1, y2⟩ := hy
    rw [x0] at y0; rw [x1] at y1; rw [x2] at y2
    funext i
    fin_cases i
    · exact Option.some.inj y0
    · exact Option.some.inj y1
    · exact Option.some.inj y2
  obtain rfl := e poses p p' hp hp'
  obtain rfl := e angles a a' ha ha'
  obtain rfl := sample_at hs hf hl hk hq1 hk0 hk1 hv1
  obtain rfl := sample_at hs hf hl hk hb1 hk0 hk1 hw1
  exact ⟨v, w, hv, hw', hne (by omega)⟩

/-- At the time of the first and of the last waypoint the body is at the origin, wherever these waypoints are. -/
theorem C77_ends_violated (times poses angles posErrs angErrs : List K) (zp za : Nat → V3 K)
    (stationary maxTime rate : K) (hpe : posErrs.length = 3) (hae : angErrs.length = 3)
    (hs : times.Pairwise (· < ·)) (h0 : times ≠ []) (hn : 3 * times.length ≤ min poses.length angles.length)
    (hr : 0 < rate) (h2 : 2 ≤ ⌈maxTime * rate⌉) (hmax : ⌈maxTime * rate⌉ < 2 ^ 32) (hst : 0 ≤ stationary) :
    ∃ s : Smoother K, Smoother.ofConfig times poses angles posErrs angErrs zp za stationary maxTime rate = .ok s ∧
      ∀ (toQuat : V3 K → Quat K) (t : K) (m : Nat), times[0]? = some t ∨ times.getLast? = some t → stationary ≤ t →
        t * rate = m → (m : Int) + 1 < ⌈maxTime * rate⌉ →
        s.body s.pos t = .ok 0 ∧ s.bodyAngle toQuat t = .ok (toQuat 0) := by
  obtain ⟨ps, as, hw, hlp, hla, -⟩ := C77_points poses angles posErrs angErrs zp za hpe hae
  obtain ⟨first, hf⟩ : ∃ x, times[0]? = some x := by
    cases times with
    | nil => exact absurd rfl h0
    | cons x _ => exact ⟨x, rfl⟩
  obtain ⟨last, hl⟩ : ∃ x, times.getLast? = some x := ⟨_, List.getLast?_eq_getLast_of_ne_nil h0⟩
  obtain ⟨s, hs1, hs2, hs3, hq⟩ := new_on_grid times ps as stationary maxTime rate first last hs hf hl (by omega) (by omega)
    hr h2 hmax
  refine ⟨s, by rw [Smoother.ofConfig, hw, ok_bind]; exact hs1, ?_⟩
  intro toQuat t m hk hst' htr hm
  obtain ⟨v, w, hv, hw', hv1, hw1⟩ := hq toQuat t m (sub_nonneg.2 hst') hst htr hm
  have hno : ¬(first < t ∧ t < last) := by
    rintro ⟨h, h'⟩
    rcases hk with hk | hk
    · rw [hf] at hk; cases hk; exact lt_irrefl _ h
    · rw [hl] at hk; cases hk; exact lt_irrefl _ h'
  rw [hv1.2 hno] at hv
  rw [hw1.2 hno] at hw'
  exact ⟨hv, hw'⟩

omit [IsStrictOrderedRing K] in
/-- The configured times count from the start of the simulation, not from the end of the stationary time: a waypoint whose
time is before that end is never passed, the body is at the origin then. -/
theorem C77_stationary_violated (times poses angles posErrs angErrs : List K) (zp za : Nat → V3 K)
    (stationary maxTime rate : K) (s : Smoother K)
    (h : Smoother.ofConfig times poses angles posErrs angErrs zp za stationary maxTime rate = .ok s)
    (toQuat : V3 K → Quat K) (t : K) (ht : t - stationary < 0) :
    s.body s.pos t = .ok 0 ∧ s.bodyAngle toQuat t = .ok ⟨1, 0, 0, 0⟩ := by
  have hst : s.stationary = stationary := by
    simp only [Smoother.ofConfig, Smoother.new, bind_ok_iff] at h
    obtain ⟨_, _, _, _, _, _, _, _, _, _, _, _, _, _, _, _, h⟩ := h
    cases h
    rfl
  have hi : s.isTimeInvalid (t - s.stationary) = true := by
    rw [hst, Smoother.isTimeInvalid]
    simp [ht]
  exact ⟨by rw [Smoother.body, hi]; rfl, by rw [Smoother.bodyAngle, hi]; rfl⟩

end

/-- More times than waypoints: the constructor reads outside of its control points. -/
theorem C77_count_violated : Smoother.ofConfig (K := ℚ) [0, 1, 2] [1, 1, 1, 2, 2, 2] [0, 0, 0, 0, 0, 0] [0, 0, 0] [0, 0, 0]
    (fun _ => 0) (fun _ => 0) 0 2 2 = .error .outOfRange := by
  have h : (match Smoother.ofConfig (K := ℚ) [0, 1, 2] [1, 1, 1, 2, 2, 2] [0, 0, 0, 0, 0, 0] [0, 0, 0] [0, 0, 0]
      (fun _ => 0) (fun _ => 0) 0 2 2 with
    | .error .outOfRange => true
    | _ => false) = true := by decide +kernel
  split at h
  · assumption
  · cases h

/-- A body that goes from (1, 1, 1) over (3, 1, 1) to (5, 1, 1) in two seconds, sampled twice a second: it is at the second
waypoint at its time, but at the origin when it should be at the first and the last. -/
example : ∃ s : Smoother ℚ, Smoother.ofConfig [0, 1, 2] [1, 1, 1, 3, 1, 1, 5, 1, 1] [0, 0, 0, 0, 0, 0, 0, 0, 0] [1, 0, 0]
    [0, 0, 0] (fun _ => ![1, 0, 0]) (fun _ => 0) 0 4 2 = .ok s ∧ s.body s.pos 1 = .ok ![4, 1, 1] ∧ s.body s.pos 0 = .ok 0 ∧
      s.body s.pos 2 = .ok 0 := by
  obtain ⟨s, hs, hin⟩ := C77_tabulated_partial (K := ℚ) [0, 1, 2] [1, 1, 1, 3, 1, 1, 5, 1, 1] [0, 0, 0, 0, 0, 0, 0, 0, 0]
    [1, 0, 0] [0, 0, 0] (fun _ => ![1, 0, 0]) (fun _ => 0) 0 4 2 rfl rfl (by simp) (by simp) (by simp)
    (by norm_num) (by norm_num) (by norm_num) le_rfl
  obtain ⟨s', hs', hend⟩ := C77_ends_violated (K := ℚ) [0, 1, 2] [1, 1, 1, 3, 1, 1, 5, 1, 1] [0, 0, 0, 0, 0, 0, 0, 0, 0]
    [1, 0, 0] [0, 0, 0] (fun _ => ![1, 0, 0]) (fun _ => 0) 0 4 2 rfl rfl (by simp) (by simp) (by simp)
    (by norm_num) (by norm_num) (by norm_num) le_rfl
  obtain rfl : s' = s := by rw [hs] at hs'; exact (Except.ok.inj hs').symm
  refine ⟨s', hs, ?_, (hend (fun _ => ⟨1, 0, 0, 0⟩) 0 0 (.inl rfl) le_rfl (by norm_num) (by norm_num)).1,
    (hend (fun _ => ⟨1, 0, 0, 0⟩) 2 4 (.inr rfl) (by norm_num) (by norm_num) (by norm_num)).1⟩
  obtain ⟨q, b, hq, -, hsp, -⟩ := hin (fun _ => ⟨1, 0, 0, 0⟩) 1 1 ![3, 1, 1] 0 2 rfl (by norm_num) (by norm_num)
    ⟨rfl, rfl, rfl⟩ ⟨rfl, rfl, rfl⟩ (by norm_num) (by norm_num) (by norm_num)
  rw [hq]
  congr 1
  funext i
  obtain ⟨e, he, hqi⟩ := hsp i
  rw [hqi]
  fin_cases i <;> simp_all <;> norm_num [← he]

/-! ### The spline -/

theorem dist3_pos {p q : V3 ℝ} (h : p ≠ q) : 0 < dist3 p q := by
  rw [dist3, Real.sqrt_pos]
  by_contra hcon
  apply h
  have h0 := sq_nonneg (q 0 - p 0)
  have h1 := sq_nonneg (q 1 - p 1)
  have h2 := sq_nonneg (q 2 - p 2)
  have e0 : (q 0 - p 0) ^ 2 = 0 := by linarith
  have e1 : (q 1 - p 1) ^ 2 = 0 := by linarith
  have e2 : (q 2 - p 2) ^ 2 = 0 := by linarith
  funext i
  fin_cases i
  · exact (sub_eq_zero.1 (pow_eq_zero_iff two_ne_zero |>.1 e0)).symm
  · exact (sub_eq_zero.1 (pow_eq_zero_iff two_ne_zero |>.1 e1)).symm
  · exact (sub_eq_zero.1 (pow_eq_zero_iff two_ne_zero |>.1 e2)).symm

theorem lengthTo_lt {l : List (V3 ℝ)} (hd : ∀ j, j + 1 < l.length → l[j]? ≠ l[j + 1]?) {i k : Nat} (h : i < k)
    (hk : k < l.length) : lengthTo l i < lengthTo l k := by
  induction k with
  | zero => exact absurd h (Nat.not_lt_zero i)
  | succ k ih =>
    have hstep : lengthTo l k < lengthTo l (k + 1) := by
      rw [lengthTo, lengthTo, Finset.sum_range_succ]
      have : l.getD k 0 ≠ l.getD (k + 1) 0 := by
        intro he
        apply hd k hk
        rw [List.getD_eq_getElem?_getD, List.getD_eq_getElem?_getD, List.getElem?_eq_getElem (by omega),
          List.getElem?_eq_getElem hk] at he
        rw [List.getElem?_eq_getElem (by omega), List.getElem?_eq_getElem hk]
        exact congrArg some he
      linarith [dist3_pos this]
    rcases Nat.lt_succ_iff_lt_or_eq.1 h with h | rfl
    · exact (ih h (by omega)).trans hstep
    · exact hstep

/-- The shares of a polyline grow from 0 to 1. -/
theorem share_bounds {l : List (V3 ℝ)} (hl : 2 ≤ l.length) (hd : ∀ j, j + 1 < l.length → l[j]? ≠ l[j + 1]?) :
    shareAt l 0 = 0 ∧ shareAt l (l.length - 1) = 1 ∧ (∀ i k, i < k → k < l.length → shareAt l i < shareAt l k) := by
  have hpos : 0 < lengthTo l (l.length - 1) := by
    have := lengthTo_lt hd (show 0 < l.length - 1 by omega) (by omega)
    simpa [lengthTo] using this
  refine ⟨by simp [shareAt, lengthTo], div_self hpos.ne', fun i k h hk => ?_⟩
  exact div_lt_div_of_pos_right (lengthTo_lt hd h hk) hpos

theorem share_mem {l : List (V3 ℝ)} (hl : 2 ≤ l.length) (hd : ∀ j, j + 1 < l.length → l[j]? ≠ l[j + 1]?) {k : Nat}
    (hk : k < l.length) : 0 ≤ shareAt l k ∧ shareAt l k ≤ 1 := by
  obtain ⟨h0, h1, hm⟩ := share_bounds hl hd
  constructor
  · rcases Nat.eq_zero_or_pos k with rfl | h
    · exact h0.ge
    · rw [← h0]; exact (hm 0 k h hk).le
  · rcases Nat.lt_or_ge k (l.length - 1) with h | h
    · rw [← h1]; exact (hm k _ h (by omega)).le
    · obtain rfl : k = l.length - 1 := by omega
      exact h1.le

theorem param_at (e : SplineTruth) (h : e.stationary < e.maxTime) (u : ℝ) :
    e.param (e.stationary + u * (e.maxTime - e.stationary)) = u := by
  have : e.maxTime - e.stationary ≠ 0 := sub_ne_zero.2 h.ne'
  rw [param]
  field_simp
  ring

theorem valid_at (e : SplineTruth) (h0 : 0 ≤ e.stationary) (h : e.stationary < e.maxTime) {u : ℝ} (hu : 0 ≤ u ∧ u ≤ 1) :
    ¬e.timeInvalid (e.stationary + u * (e.maxTime - e.stationary) - e.stationary) := by
  have hd : 0 < e.maxTime - e.stationary := sub_pos.2 h
  have h1 : 0 ≤ u * (e.maxTime - e.stationary) := mul_nonneg hu.1 hd.le
  have h2 : u * (e.maxTime - e.stationary) ≤ 1 * (e.maxTime - e.stationary) := mul_le_mul_of_nonneg_right hu.2 hd.le
  rintro (h3 | h3) <;> linarith

/-- The spline truth passes every control point (`C77_points`), no two consecutive ones equal: the first at the end of the
stationary time, the last at `max_time`, those between in their order, when the share of the polyline up to them has passed of
the time between.  Orientations are passed likewise, by the share of their own polyline: not in general together with the
positions. -/
theorem C77_spline_partial (fit : List (V3 ℝ) → Curve) (hfit : FitLaw fit) (poses angles posErrs angErrs : List ℝ)
    (zp za : Nat → V3 ℝ) (stationary maxTime : ℝ) (h0 : 0 ≤ stationary) (h : stationary < maxTime) (ps as : List (V3 ℝ))
    (hw : waypoints poses angles posErrs angErrs zp za = .ok (ps, as)) (h1 : ps ≠ []) :
    ∃ e, SplineTruth.ofConfig fit poses angles posErrs angErrs zp za stationary maxTime = .ok e ∧
      (2 ≤ ps.length → (∀ j, j + 1 < ps.length → ps[j]? ≠ ps[j + 1]?) → ∃ τ : Nat → ℝ, τ 0 = stationary ∧
        τ (ps.length - 1) = maxTime ∧ (∀ i k, i < k → k < ps.length → τ i < τ k) ∧
        (∀ k, τ k = stationary + shareAt ps k * (maxTime - stationary)) ∧
        ∀ k q, ps[k]? = some q → e.position (τ k) = q) ∧
      (2 ≤ as.length → (∀ j, j + 1 < as.length → as[j]? ≠ as[j + 1]?) → ∃ τ : Nat → ℝ, τ 0 = stationary ∧
        τ (as.length - 1) = maxTime ∧ (∀ i k, i < k → k < as.length → τ i < τ k) ∧
        (∀ k, τ k = stationary + shareAt as k * (maxTime - stationary)) ∧
        ∀ k b, as[k]? = some b → e.orientation (τ k) = eulerToQuat b) := by
  have hd : 0 < maxTime - stationary := sub_pos.2 h
  refine ⟨⟨fit ps, fit as, stationary, maxTime⟩, by rw [SplineTruth.ofConfig, hw, ok_bind, guardUB_true h1]; rfl, ?_, ?_⟩
  · intro hl hne
    obtain ⟨hs0, hs1, hsm⟩ := share_bounds hl hne
    refine ⟨fun k => stationary + shareAt ps k * (maxTime - stationary), by simp [hs0], by simp [hs1], ?_, fun _ => rfl, ?_⟩
    · intro i k hik hk
      have := mul_lt_mul_of_pos_right (hsm i k hik hk) hd
      dsimp only
      linarith
    · intro k q hk
      have hkl := (List.getElem?_eq_some_iff.1 hk).1
      obtain ⟨hnan, hthr⟩ := hfit.through ps hl hne
      have hv := valid_at ⟨fit ps, fit as, stationary, maxTime⟩ h0 h (share_mem hl hne hkl)
      have hpar := param_at ⟨fit ps, fit as, stationary, maxTime⟩ h (shareAt ps k)
      dsimp only at hv hpar ⊢
      rw [position, if_neg (by rintro (h' | h'); exacts [hv h', by rw [hnan] at h'; cases h']), hpar]
      exact hthr k q hk
  · intro hl hne
    obtain ⟨hs0, hs1, hsm⟩ := share_bounds hl hne
    refine ⟨fun k => stationary + shareAt as k * (maxTime - stationary), by simp [hs0], by simp [hs1], ?_, fun _ => rfl, ?_⟩
    · intro i k hik hk
      have := mul_lt_mul_of_pos_right (hsm i k hik hk) hd
      dsimp only
      linarith
    · intro k q hk
      have hkl := (List.getElem?_eq_some_iff.1 hk).1
      obtain ⟨hnan, hthr⟩ := hfit.through as hl hne
      have hv := valid_at ⟨fit ps, fit as, stationary, maxTime⟩ h0 h (share_mem hl hne hkl)
      have hpar := param_at ⟨fit ps, fit as, stationary, maxTime⟩ h (shareAt as k)
      dsimp only at hv hpar ⊢
      rw [orientation, if_neg (by rintro (h' | h'); exacts [hv h', by rw [hnan] at h'; cases h']), hpar]
      exact congrArg _ (hthr k q hk)

/-- Before the end of the stationary time the body is at the origin, wherever its first waypoint is. -/
theorem C77_wait_violated (fit : List (V3 ℝ) → Curve) (poses angles posErrs angErrs : List ℝ) (zp za : Nat → V3 ℝ)
    (stationary maxTime : ℝ) (e : SplineTruth)
    (he : SplineTruth.ofConfig fit poses angles posErrs angErrs zp za stationary maxTime = .ok e) (t : ℝ) (ht : t < stationary) :
    e.position t = 0 ∧ e.orientation t = ⟨1, 0, 0, 0⟩ := by
  simp only [SplineTruth.ofConfig, bind_ok_iff] at he
  obtain ⟨w, _, _, _, he⟩ := he
  cases he
  have hi : SplineTruth.timeInvalid ⟨fit w.1, fit w.2, stationary, maxTime⟩ (t - stationary) := by
    left
    linarith
  exact ⟨if_pos (.inl hi), if_pos (.inl hi)⟩

/-- A body configured to keep one position or one orientation is at the origin or not turned at all instead. -/
theorem C77_still_violated (fit : List (V3 ℝ) → Curve) (hfit : FitLaw fit) (poses angles posErrs angErrs : List ℝ)
    (zp za : Nat → V3 ℝ) (stationary maxTime : ℝ) (ps as : List (V3 ℝ))
    (hw : waypoints poses angles posErrs angErrs zp za = .ok (ps, as)) (h1 : ps ≠ []) :
    ∃ e, SplineTruth.ofConfig fit poses angles posErrs angErrs zp za stationary maxTime = .ok e ∧
      (∀ n p, 0 < n → ps = List.replicate n p → ∀ t, e.position t = 0) ∧
      (∀ n a, 0 < n → as = List.replicate n a → ∀ t, e.orientation t = ⟨1, 0, 0, 0⟩) := by
  refine ⟨⟨fit ps, fit as, stationary, maxTime⟩, by rw [SplineTruth.ofConfig, hw, ok_bind, guardUB_true h1]; rfl, ?_, ?_⟩
  · rintro n p hn rfl t
    exact if_pos (.inr (hfit.still n p hn))
  · rintro n a hn rfl t
    exact if_pos (.inr (hfit.still n a hn))

/-! ### A fit with the law: polynomials through the points -/

/-- The polynomials through the components of points, in the share of their polyline. -/
noncomputable def polyThrough (l : List (V3 ℝ)) (i : Fin 3) : Polynomial ℝ :=
  Lagrange.interpolate (Finset.range l.length) (shareAt l) fun k => l.getD k 0 i

open Classical in
noncomputable def polyFit (l : List (V3 ℝ)) : Curve :=
  ⟨fun u i => (polyThrough l i).eval u, fun u i => (polyThrough l i).derivative.eval u,
    fun u i => (polyThrough l i).derivative.derivative.eval u,
    decide (∃ (n : Nat) (p : V3 ℝ), l = List.replicate n p)⟩

theorem polyFit_law : FitLaw polyFit where
  through l hl hd := by
    obtain ⟨-, -, hm⟩ := share_bounds hl hd
    refine ⟨?_, fun k p hk => ?_⟩
    · simp only [polyFit, decide_eq_false_iff_not]
      rintro ⟨n, p, rfl⟩
      rw [List.length_replicate] at hl
      apply hd 0 (by simp; omega)
      rw [List.getElem?_replicate, List.getElem?_replicate, if_pos (by omega), if_pos (by omega)]
    · have hkl := (List.getElem?_eq_some_iff.1 hk).1
      have hinj : Set.InjOn (shareAt l) (Finset.range l.length) := by
        intro i hi j hj hij
        simp only [Finset.coe_range, Set.mem_Iio] at hi hj
        rcases lt_trichotomy i j with h | h | h
        · exact absurd hij (hm i j h hj).ne
        · exact h
        · exact absurd hij (hm j i h hi).ne'
      funext i
      have := Lagrange.eval_interpolate_at_node (fun k => l.getD k 0 i) hinj (Finset.mem_range.2 hkl)
      simp only [polyFit, polyThrough]
      rw [this, List.getD_eq_getElem?_getD, hk]
      rfl
  still n p _ := by
    simp only [polyFit, decide_eq_true_eq]
    exact ⟨n, p, rfl⟩

/-- Three waypoints on a straight line, the second after a third of the way, with one orientation, half a turn about the
vertical: the body stands at the origin for a second, jumps to the first waypoint, is at the second at 4 s and at the last at
10 s, and is never turned. -/
example : ∃ e, SplineTruth.ofConfig polyFit [1, 0, 0, 2, 0, 0, 4, 0, 0] [0, 0, Real.pi, 0, 0, Real.pi, 0, 0, Real.pi] [0, 0, 0]
    [0, 0, 0] (fun _ => 0) (fun _ => 0) 1 10 = .ok e ∧ e.position 0 = 0 ∧ e.position 1 = ![1, 0, 0] ∧
      e.position 4 = ![2, 0, 0] ∧ e.position 10 = ![4, 0, 0] ∧ ∀ t, e.orientation t = ⟨1, 0, 0, 0⟩ := by
  have hz (x : V3 ℝ) : vecNormRand x (fun i : Fin 3 => ([0, 0, 0] : List ℝ)[(i : Nat)]) 0 = x := by
    funext i; simp [vecNormRand]
  have hw : waypoints ([1, 0, 0, 2, 0, 0, 4, 0, 0] : List ℝ) [0, 0, Real.pi, 0, 0, Real.pi, 0, 0, Real.pi] [0, 0, 0]
      [0, 0, 0] (fun _ => 0) (fun _ => 0) =
      .ok ([![1, 0, 0], ![2, 0, 0], ![4, 0, 0]], [![0, 0, Real.pi], ![0, 0, Real.pi], ![0, 0, Real.pi]]) := by
    have hv : stdToV3 ([0, 0, 0] : List ℝ) = .ok fun i : Fin 3 => ([0, 0, 0] : List ℝ).getD i 0 := by
      simp [stdToV3, stdToEigVec, guardUB]
    rw [waypoints, hv, ok_bind, ok_bind]
    simp [waypointLoop, pointAt, readAt, hz]
  obtain ⟨e, he, hpos, -⟩ := C77_spline_partial polyFit polyFit_law _ _ _ _ _ _ 1 10 (by norm_num) (by norm_num) _ _ hw (by simp)
  obtain ⟨e', he', -, hang⟩ := C77_still_violated polyFit polyFit_law _ _ _ _ _ _ 1 10 _ _ hw (by simp)
  obtain rfl : e' = e := by rw [he] at he'; exact (Except.ok.inj he').symm
  obtain ⟨τ, ht0, ht2, -, htk, hq⟩ := hpos (by simp) (by
    intro j hj
    simp only [List.length_cons, List.length_nil] at hj
    have : j = 0 ∨ j = 1 := by omega
    rcases this with rfl | rfl
    · simp
    · simp)
  have h1 := htk 1
  have hd (a b : ℝ) (h : a ≤ b) : dist3 ![a, 0, 0] ![b, 0, 0] = b - a := by
    simp [dist3, Real.sqrt_sq (sub_nonneg.2 h)]
  have hsh : shareAt [(![1, 0, 0] : V3 ℝ), ![2, 0, 0], ![4, 0, 0]] 1 = 1 / 3 := by
    simp only [shareAt, lengthTo, List.length_cons, List.length_nil, Nat.reduceAdd, Nat.add_sub_cancel, Finset.sum_range_succ,
      Finset.sum_range_zero, List.getD_cons_zero, List.getD_cons_succ, zero_add]
    rw [hd 1 2 (by norm_num), hd 2 4 (by norm_num)]
    norm_num
  rw [hsh] at h1
  norm_num at h1
  refine ⟨e', he, (C77_wait_violated _ _ _ _ _ _ _ _ _ _ he 0 (by norm_num)).1, ?_, ?_, ?_, hang 3 ![0, 0, Real.pi] (by norm_num) rfl⟩
  · have := hq 0 _ rfl
    rwa [ht0] at this
  · have := hq 1 _ rfl
    rwa [h1] at this
  · have := hq 2 _ rfl
    simp only [List.length_cons, List.length_nil, Nat.reduceAdd, Nat.add_sub_cancel] at ht2
    rwa [ht2] at this

end EkfCal
