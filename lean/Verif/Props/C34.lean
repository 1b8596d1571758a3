import Verif.Spec.Schedule
import Verif.Lemmas.Mat
import Verif.Lemmas.UMap
import Mathlib.Algebra.Order.Floor.Ring
import Mathlib.Data.Rat.Floor
import Mathlib.Data.List.Pairwise
import Mathlib.Tactic.Linarith
import Mathlib.Tactic.FieldSimp

/-!
# C34: simulated measurements are delivered once and in time order
-/

namespace EkfCal
variable {K : Type} [Field K] [LinearOrder K] [IsStrictOrderedRing K] [FloorRing K]

section Times

theorem SimSensor.times_form (s : SimSensor K) (T : K) (hr : 0 < s.rate) (hT : 0 ≤ T) (hfit : T * s.rate < 2 ^ 32) :
    s.times T = .ok ((List.range ⌊T * s.rate⌋.toNat).map fun i =>
      s.applyTimeError i ((i : K) / s.rate + if s.noErrors then 0 else s.offset)) := by
  have h0 : 0 ≤ ⌊T * s.rate⌋ := Int.floor_nonneg.2 (mul_nonneg hT hr.le)
  have h1 : ⌊T * s.rate⌋ < 2 ^ 32 := Int.floor_lt.2 (by push_cast; norm_num at hfit ⊢; exact hfit)
  simp only [SimSensor.times, guardUB, if_pos (And.intro h0 h1)]
  rfl

/-- The last measurement period ends within the simulated time. -/
theorem period_le {T r : K} (hr : 0 < r) {i : Nat} (hi : i < ⌊T * r⌋.toNat) : (i : K) / r + 1 / r ≤ T := by
  have h1 : ((i + 1 : Nat) : ℤ) ≤ ⌊T * r⌋ := by omega
  have h2 : (((i + 1 : Nat) : ℤ) : K) ≤ T * r := Int.le_floor.1 h1
  rw [← add_div, div_le_iff₀ hr]
  push_cast at h2
  exact h2

/-- **Without simulated errors** a sensor of rate `r` simulated for `T` seconds gets floor(`T r`) measurement times, the
multiples of its period from 0 on: strictly increasing and within `[0, T)`. -/
theorem C34_times (s : SimSensor K) (T : K) (he : s.noErrors = true) (hr : 0 < s.rate) (hT : 0 ≤ T)
    (hfit : T * s.rate < 2 ^ 32) :
    ∃ l, s.times T = .ok l ∧ (l.length : ℤ) = ⌊T * s.rate⌋ ∧ l.Pairwise (· < ·) ∧ (∀ t ∈ l, 0 ≤ t ∧ t < T) ∧
      ∀ (i : Nat) (t : K), l[i]? = some t → t = (i : K) / s.rate := by
  refine ⟨_, s.times_form T hr hT hfit, ?_, ?_, ?_, ?_⟩
  · have h0 : 0 ≤ ⌊T * s.rate⌋ := Int.floor_nonneg.2 (mul_nonneg hT hr.le)
    simp [h0]
  · rw [List.pairwise_map]
    refine List.pairwise_lt_range.imp fun {i j} h => ?_
    have : (i : K) < j := by exact_mod_cast h
    simp only [SimSensor.applyTimeError, he, if_true, add_zero]
    exact div_lt_div_of_pos_right this hr
  · intro t ht
    obtain ⟨i, hi, rfl⟩ := List.mem_map.1 ht
    have := period_le hr (List.mem_range.1 hi)
    have hp : 0 < 1 / s.rate := by positivity
    simp only [SimSensor.applyTimeError, he, if_true, add_zero]
    exact ⟨by positivity, by linarith⟩
  · intro i t h
    simp only [List.getElem?_map, Option.map_eq_some_iff] at h
    obtain ⟨j, hj, rfl⟩ := h
    obtain ⟨hj', rfl⟩ := List.getElem?_eq_some_iff.1 hj
    simp [SimSensor.applyTimeError, he]

/-- **With simulated errors**: still floor(`T r`) times, whatever is drawn; strictly increasing as long as every time
error is below half a period; and within `[0, T)` if there is no time error. -/
theorem C34_times_partial (s : SimSensor K) (T : K) (he : s.noErrors = false) (hr : 0 < s.rate) (hT : 0 ≤ T)
    (hfit : T * s.rate < 2 ^ 32) :
    ∃ l, s.times T = .ok l ∧ (l.length : ℤ) = ⌊T * s.rate⌋ ∧
      ((∀ i, |s.jitter i| < 1 / (2 * s.rate)) → l.Pairwise (· < ·)) ∧
      ((∀ i, s.jitter i = 0) → 0 ≤ s.offset → s.offset < 1 / s.rate → ∀ t ∈ l, 0 ≤ t ∧ t < T) := by
  refine ⟨_, s.times_form T hr hT hfit, ?_, ?_, ?_⟩
  · have h0 : 0 ≤ ⌊T * s.rate⌋ := Int.floor_nonneg.2 (mul_nonneg hT hr.le)
    simp [h0]
  · intro hj
    rw [List.pairwise_map]
    refine List.pairwise_lt_range.imp fun {i j} h => ?_
    have h1 : (i : K) + 1 ≤ j := by exact_mod_cast h
    have h2 : (i : K) / s.rate + 1 / s.rate ≤ j / s.rate := by
      rw [← add_div]
      exact div_le_div_of_nonneg_right h1 hr.le
    have h3 : 1 / s.rate = 1 / (2 * s.rate) + 1 / (2 * s.rate) := by field_simp; norm_num
    have hi := abs_lt.1 (hj i)
    have hj := abs_lt.1 (hj j)
    simp only [SimSensor.applyTimeError, he]
    simp only [Bool.false_eq_true, if_false]
    linarith
  · intro hj h0 h1 t ht
    obtain ⟨i, hi, rfl⟩ := List.mem_map.1 ht
    have := period_le hr (List.mem_range.1 hi)
    simp only [SimSensor.applyTimeError, he, hj, Bool.false_eq_true, if_false, add_zero]
    have : 0 ≤ (i : K) / s.rate := by positivity
    exact ⟨by linarith, by linarith⟩

end Times

/-- **A drawn time error can put a measurement before the start and out of order**: rate 2, two seconds, time error
−3/4 s for the third measurement. -/
theorem C34_times_violated : ¬ ∀ (s : SimSensor ℚ) (T : ℚ), 0 < s.rate → 0 ≤ T → T * s.rate < 2 ^ 32 → 0 ≤ s.offset →
    s.offset < 1 / s.rate → ∃ l, s.times T = .ok l ∧ l.Pairwise (· < ·) ∧ ∀ t ∈ l, 0 ≤ t ∧ t < T := by
  intro h
  obtain ⟨l, hl, hp, _⟩ := h ⟨.imu, 2, false, 0, fun i => if i = 2 then -3 / 4 else 0⟩ 2 (by norm_num) (by norm_num)
    (by norm_num) (by norm_num) (by norm_num)
  rw [SimSensor.times_form _ _ (by norm_num) (by norm_num) (by norm_num)] at hl
  injection hl with hl
  rw [← hl] at hp
  have h4 : (⌊(2 : ℚ) * 2⌋).toNat = 4 := by
    have : ⌊(2 : ℚ) * 2⌋ = 4 := by rw [Int.floor_eq_iff]; norm_num
    rw [this]; rfl
  rw [h4] at hp
  have := List.pairwise_iff_getElem.1 hp 1 2 (by simp) (by simp) (by norm_num)
  simp [SimSensor.applyTimeError] at this
  norm_num at this

/-- A 200 Hz sensor for 10 s. -/
example : ∃ l, (⟨.imu, 200, true, 0, fun _ => 0⟩ : SimSensor ℚ).times 10 = .ok l ∧ l.length = 2000 := by
  obtain ⟨l, h, hn, _⟩ := C34_times (⟨.imu, 200, true, 0, fun _ => 0⟩ : SimSensor ℚ) 10 rfl (by norm_num) (by norm_num)
    (by norm_num)
  refine ⟨l, h, ?_⟩
  have : ⌊(10 : ℚ) * 200⌋ = 2000 := by rw [Int.floor_eq_iff]; norm_num
  rw [this] at hn
  exact_mod_cast hn

section Stream

theorem SimSensor.messages_form {s : SimSensor K} {T : K} {id : Nat} {ms : List (SimMsg K)} (h : s.messages T id = .ok ms) :
    ∃ ts, s.times T = .ok ts ∧ ms.map SimMsg.time = ts ∧ ∀ m ∈ ms, m.sensorId = id ∧ m.kind = s.kind := by
  simp only [SimSensor.messages, bind_ok_iff] at h
  obtain ⟨ts, hts, h⟩ := h
  injection h with h
  subst h
  refine ⟨ts, hts, ?_, fun m hm => ?_⟩
  · exact List.ext_getElem (by simp) (by simp)
  · obtain ⟨i, hi, rfl⟩ := List.mem_mapIdx.1 hm
    exact ⟨rfl, rfl⟩

omit [IsStrictOrderedRing K] in
theorem load_form (T : K) (ss : List (SimSensor K)) : ∀ (k : Nat) (c : IdCounters) (map : UMap SensorKind)
    (msgs : List (SimMsg K)) (ms : Nat → List (SimMsg K)), c.sensor = k → k + ss.length < 2 ^ 32 →
    (∀ (n : Nat) (s : SimSensor K), ss[n]? = some s → s.messages T (k + n + 1) = .ok (ms n)) →
    ∃ map', loadSensors T ss c map msgs = .ok (map', msgs ++ (List.range ss.length).flatMap ms) ∧
      (∀ j, j ≤ k → map'.find? j = map.find? j) ∧
      ∀ (n : Nat) (s : SimSensor K), ss[n]? = some s → map'.find? (k + n + 1) = some s.kind := by
  induction ss with
  | nil =>
    intro k c map msgs ms _ _ _
    exact ⟨map, by simp [loadSensors], fun _ _ => rfl, fun n s h => by simp at h⟩
  | cons s ss ih =>
    intro k c map msgs ms hc hk hm
    simp only [List.length_cons] at hk
    have hn : (c.next .sensor).1 = k + 1 := by
      show succ32 c.sensor = k + 1
      rw [hc]
      exact Nat.mod_eq_of_lt (by omega)
    have hn' : (c.next .sensor).2.sensor = k + 1 := hn
    have h0 : s.messages T (k + 1) = .ok (ms 0) := hm 0 s rfl
    obtain ⟨map', h, hold, hnew⟩ := ih (k + 1) (c.next .sensor).2 (map.insert (k + 1) s.kind) (msgs ++ ms 0)
      (fun n => ms (n + 1)) hn' (by omega) (fun n t ht => by
        have := hm (n + 1) t (by simpa using ht)
        rwa [show k + (n + 1) + 1 = k + 1 + n + 1 by omega] at this)
    refine ⟨map', ?_, fun j hj => ?_, fun n t ht => ?_⟩
    · simp only [loadSensors, hn, h0, ok_bind, h]
      simp only [List.length_cons, List.range_succ_eq_map, List.flatMap_cons, List.append_assoc]
      rw [List.flatMap_map]
    · rw [hold j (by omega), UMap.find?_insert_ne _ _ (by omega)]
    · cases n with
      | zero =>
        simp only [List.getElem?_cons_zero, Option.some.injEq] at ht
        subst ht
        rw [show k + 0 + 1 = k + 1 by omega, hold _ (Nat.le_refl _), UMap.find?_insert_self]
      | succ n =>
        rw [show k + (n + 1) + 1 = k + 1 + n + 1 by omega]
        exact hnew n t (by simpa using ht)

omit [IsStrictOrderedRing K] [FloorRing K] [Field K] [LinearOrder K] in
theorem deliver_form (map : UMap SensorKind) (l : List (SimMsg K)) (h : ∀ m ∈ l, map.find? m.sensorId = some m.kind) :
    deliver map l = .ok (l.map fun m => (m.sensorId, m)) := by
  induction l with
  | nil => rfl
  | cons m l ih =>
    simp only [deliver, h m List.mem_cons_self, guardUB, if_true]
    rw [ih fun x hx => h x (List.mem_cons_of_mem _ hx)]
    rfl

/-- **The merged stream**: for any set of sensors that generate their messages, the run is defined; what is delivered is a
permutation of all sensors' messages, sorted by time; and each message goes to the sensor that produced it. -/
theorem C34_stream {sort : List (SimMsg K) → List (SimMsg K)} (hsort : SortLaw sort) (T : K) (ss : List (SimSensor K))
    (hlen : ss.length < 2 ^ 32) (ms : Nat → List (SimMsg K))
    (hms : ∀ (n : Nat) (s : SimSensor K), ss[n]? = some s → s.messages T (n + 1) = .ok (ms n)) :
    ∃ d, simulate sort T ss = .ok d ∧ (d.map Prod.snd).Perm ((List.range ss.length).flatMap ms) ∧
      (d.map fun x => x.2.time).Pairwise (· ≤ ·) ∧
      ∀ x ∈ d, ∃ (n : Nat) (s : SimSensor K), ss[n]? = some s ∧ x.1 = n + 1 ∧ x.2 ∈ ms n ∧ x.2.kind = s.kind := by
  obtain ⟨map, hload, _, hmap⟩ := load_form T ss 0 {} [] [] ms rfl (by omega) (by simpa using hms)
  simp only [List.nil_append, Nat.zero_add] at hload hmap
  obtain ⟨hperm, hsorted⟩ := hsort ((List.range ss.length).flatMap ms)
  have hsrc : ∀ m ∈ sort ((List.range ss.length).flatMap ms),
      ∃ (n : Nat) (s : SimSensor K), ss[n]? = some s ∧ m.sensorId = n + 1 ∧ m ∈ ms n ∧ m.kind = s.kind := by
    intro m hm
    obtain ⟨n, hn, hm⟩ := List.mem_flatMap.1 (hperm.mem_iff.1 hm)
    have hs : ss[n]? = some (ss[n]'(List.mem_range.1 hn)) := List.getElem?_eq_getElem (List.mem_range.1 hn)
    obtain ⟨ts, _, _, hall⟩ := SimSensor.messages_form (hms n _ hs)
    exact ⟨n, _, hs, (hall m hm).1, hm, (hall m hm).2⟩
  have hdel := deliver_form map _ fun m hm => by
    obtain ⟨n, s, hs, hid, _, hk⟩ := hsrc m hm
    rw [hid, hk]
    exact hmap n s hs
  refine ⟨_, by simp only [simulate, hload, ok_bind, hdel]; rfl, ?_, ?_, ?_⟩
  · rw [List.map_map, show (Prod.snd ∘ fun m : SimMsg K => (m.sensorId, m)) = id from rfl, List.map_id]
    exact hperm
  · simp only [List.map_map, List.pairwise_map]
    refine hsorted.imp fun {a b} h => ?_
    simpa [messageCompare] using h
  · intro x hx
    obtain ⟨m, hm, rfl⟩ := List.mem_map.1 hx
    exact hsrc m hm

/-- **Each sensor receives its own messages and no others**: what is delivered to sensor number `n` is a permutation of
the messages it generated, and exactly these in their order when its times increase strictly. -/
theorem C34_each {sort : List (SimMsg K) → List (SimMsg K)} (hsort : SortLaw sort) (T : K) (ss : List (SimSensor K))
    (hlen : ss.length < 2 ^ 32) (ms : Nat → List (SimMsg K))
    (hms : ∀ (n : Nat) (s : SimSensor K), ss[n]? = some s → s.messages T (n + 1) = .ok (ms n)) :
    ∃ d, simulate sort T ss = .ok d ∧ ∀ n < ss.length, (deliveredTo (n + 1) d).Perm (ms n) ∧
      (((ms n).map SimMsg.time).Pairwise (· < ·) → deliveredTo (n + 1) d = ms n) := by
  obtain ⟨d, hd, hperm, hsorted, hsrc⟩ := C34_stream hsort T ss hlen ms hms
  have hid : ∀ k < ss.length, ∀ m ∈ ms k, m.sensorId = k + 1 := fun k hk m hm => by
    obtain ⟨_, _, _, h⟩ := SimSensor.messages_form (hms k _ (List.getElem?_eq_getElem hk))
    exact (h m hm).1
  have hdid : ∀ x ∈ d, x.1 = x.2.sensorId := fun x hx => by
    obtain ⟨k, s, hs, h1, h2, _⟩ := hsrc x hx
    rw [h1, hid k (List.getElem?_eq_some_iff.1 hs).1 _ h2]
  refine ⟨d, hd, fun n hn => ?_⟩
  have e1 : deliveredTo (n + 1) d = (d.map Prod.snd).filter fun m => m.sensorId = n + 1 := by
    rw [deliveredTo, List.filter_map]
    exact congrArg _ (List.filter_congr fun x hx => by simp [hdid x hx])
  have e2 : ((List.range ss.length).flatMap ms).filter (fun m => m.sensorId = n + 1) = ms n := by
    rw [List.filter_flatMap]
    have : ∀ N ≤ ss.length, (List.range N).flatMap (fun k => (ms k).filter fun m => m.sensorId = n + 1) =
        if n < N then ms n else [] := by
      intro N
      induction N with
      | zero => intro _; simp
      | succ N ih =>
        intro hN
        rw [List.range_succ, List.flatMap_append, ih (by omega)]
        simp only [List.flatMap_cons, List.flatMap_nil, List.append_nil]
        by_cases h : N = n
        · subst h
          rw [if_neg (by omega), if_pos (by omega), List.nil_append, List.filter_eq_self.2]
          intro m hm
          simp [hid N hn m hm]
        · have : (ms N).filter (fun m => m.sensorId = n + 1) = [] := by
            rw [List.filter_eq_nil_iff]
            intro m hm
            rw [hid N (by omega) m hm]
            simp [h]
          rw [this, List.append_nil]
          by_cases h2 : n < N
          · rw [if_pos h2, if_pos (by omega)]
          · rw [if_neg h2, if_neg (by omega)]
    rw [this _ (Nat.le_refl _), if_pos hn]
  have hp : (deliveredTo (n + 1) d).Perm (ms n) := by
    have := hperm.filter fun m => decide (m.sensorId = n + 1)
    rwa [e2, ← e1] at this
  refine ⟨hp, fun hlt => ?_⟩
  have hlt' := List.pairwise_map.1 hlt
  refine List.Perm.eq_of_pairwise (le := fun a b : SimMsg K => a.time ≤ b.time) (fun a b ha hb h1 h2 => ?_) ?_
    (hlt'.imp le_of_lt) hp
  · have : Std.Symm fun a b : SimMsg K => a.time = b.time → a = b := ⟨fun x y h e => (h e.symm).symm⟩
    have hinj := List.Pairwise.forall_of_forall (R := fun a b : SimMsg K => a.time = b.time → a = b)
      (fun x _ _ => rfl) (hlt'.imp fun h e => absurd e h.ne)
    exact hinj (hp.mem_iff.1 ha) hb (le_antisymm h1 h2)
  · rw [e1]
    refine List.Pairwise.filter _ ?_
    rw [List.pairwise_map] at hsorted ⊢
    exact hsorted

end Stream

omit [IsStrictOrderedRing K] [FloorRing K] [Field K] in
/-- Merge sort meets the assumption on `std::sort`. -/
theorem sortLaw_mergeSort : SortLaw (K := K) fun l => l.mergeSort fun a b => decide (a.time ≤ b.time) := by
  intro l
  refine ⟨List.mergeSort_perm _ _, (List.pairwise_mergeSort (fun a b c h1 h2 => ?_) (fun a b => ?_) l).imp fun h => ?_⟩
  · simp only [decide_eq_true_eq] at h1 h2 ⊢
    exact le_trans h1 h2
  · simp only [Bool.or_eq_true, decide_eq_true_eq]
    exact le_total _ _
  · simpa [messageCompare] using h

/-- An IMU at 3 Hz and a camera at 1 Hz for two seconds. -/
example : ∃ d, simulate (fun l => l.mergeSort fun a b => decide (a.time ≤ b.time)) 2
    [(⟨.imu, 3, true, 0, fun _ => 0⟩ : SimSensor ℚ), ⟨.camera, 1, true, 0, fun _ => 0⟩] = .ok d ∧ d.length = 8 := by
  have h1 : ⌊(2 : ℚ) * 3⌋ = 6 := by rw [Int.floor_eq_iff]; norm_num
  have h2 : ⌊(2 : ℚ) * 1⌋ = 2 := by rw [Int.floor_eq_iff]; norm_num
  have t1 := SimSensor.times_form (⟨.imu, 3, true, 0, fun _ => 0⟩ : SimSensor ℚ) 2 (by norm_num) (by norm_num) (by norm_num)
  have t2 := SimSensor.times_form (⟨.camera, 1, true, 0, fun _ => 0⟩ : SimSensor ℚ) 2 (by norm_num) (by norm_num)
    (by norm_num)
  simp only [h1, h2] at t1 t2
  obtain ⟨d, hd, hp, _⟩ := C34_stream sortLaw_mergeSort (2 : ℚ)
    [(⟨.imu, 3, true, 0, fun _ => 0⟩ : SimSensor ℚ), ⟨.camera, 1, true, 0, fun _ => 0⟩] (by simp)
    (fun n => if n = 0 then _ else _) (fun n s hs => by
      match n, hs with
      | 0, hs =>
        simp only [List.getElem?_cons_zero, Option.some.injEq] at hs
        subst hs
        rw [SimSensor.messages, t1]
        rfl
      | 1, hs =>
        simp only [List.getElem?_cons_succ, List.getElem?_cons_zero, Option.some.injEq] at hs
        subst hs
        rw [SimSensor.messages, t2]
        rfl)
  refine ⟨d, hd, ?_⟩
  have := hp.length_eq
  rw [List.length_map] at this
  rw [this]
  rfl

end EkfCal
