import Verif.Lemmas.Mat
import Verif.Lemmas.UMap
import Verif.Spec.RosNode
import Verif.Props.C67

/-!
# C70 — a ROS message reaches exactly the sensors configured for its topic, with the content it was sent with
-/

set_option linter.unusedSectionVars false

namespace EkfCal
variable {K : Type} [Field K] [LinearOrder K]

/-! ## Conversion -/

theorem rosTime_eq (s : RosStamp) : (rosTime s : K) = s.sec + s.nanosec / 10 ^ 9 := by
  rw [rosTime, mul_one_div]

theorem rosToMat_eq (a : Fin 9 → K) : rosToMat a = Matrix.of fun (i j : Fin 3) => a ⟨3 * i + j, by omega⟩ := by
  ext i j
  fin_cases i <;> fin_cases j <;> rfl

/-- **Times of messages are ordered as their stamps**, seconds first, then nanoseconds. -/
theorem C70_time [IsStrictOrderedRing K] (a b : RosStamp) (ha : a.nanosec < 10 ^ 9) (hb : b.nanosec < 10 ^ 9) :
    (rosTime a : K) < rosTime b ↔ a.sec < b.sec ∨ a.sec = b.sec ∧ a.nanosec < b.nanosec := by
  have h9 : (0 : K) < 10 ^ 9 := by positivity
  have key : (rosTime a : K) < rosTime b ↔ a.sec * 10 ^ 9 + a.nanosec < b.sec * 10 ^ 9 + b.nanosec := by
    rw [rosTime_eq, rosTime_eq, ← mul_lt_mul_iff_of_pos_right h9, add_mul, add_mul, div_mul_cancel₀ _ h9.ne', div_mul_cancel₀ _ h9.ne']
    exact_mod_cast Iff.rfl
  rw [key]
  omega

/-! ## One callback -/

/-- Until the reference is known the covariance of a fix makes no difference. -/
theorem GpsUpdater.update_cov {N : Num K} {G : GpsNum K} {u : GpsUpdater K} {e e' : Ekf K} {time : K} {lla : V3 K} {c c' : Mat K}
    (h : (e.calculateLocalTime time).2.predict N.toPrim (e.calculateLocalTime time).1 = .ok e') (hl : e'.isLlaInitialized = false) :
    u.update N G e time lla c = u.update N G e time lla c' := by
  unfold GpsUpdater.update
  dsimp only
  rw [h, ok_bind, ok_bind, if_pos hl, if_pos hl]

/-- Everything but the filter, the frame counter, the published images and the entries of `id`. -/
structure Node.Beside (id : Nat) (n n' : Node K) : Prop where
  subs : n'.subs = n.subs
  sensorCount : n'.sensorCount = n.sensorCount
  publishers : n'.publishers = n.publishers
  warnings : n'.warnings = n.warnings
  imus : ∀ k, k ≠ id → n'.imus.find? k = n.imus.find? k
  gpss : ∀ k, k ≠ id → n'.gpss.find? k = n.gpss.find? k
  cams : ∀ k, k ≠ id → n'.cams.find? k = n.cams.find? k

theorem Node.Beside.holds {id k : Nat} {n n' : Node K} (h : n.Beside id n') (hk : k ≠ id) {s : RosKind} {d : Device K}
    (hd : n.Holds k s d) : n'.Holds k s d := by
  cases s <;> cases d <;> simp only [Node.Holds] at hd ⊢
  · rw [h.imus k hk]; exact hd
  · rw [h.gpss k hk]; exact hd
  · rw [h.cams k hk]; exact hd

/-- A message a node cannot cope with. -/
def RosMsg.Bad (err : UB) : RosMsg K → Prop
  | .imu _ => False
  | .fix _ => err = .uninitialised
  | .image m => err = .assertFailed ∧ m.channels ≠ 1

/-- The result of a callback against the specification of the sensor. -/
theorem callback_take {N : Num K} {G : GpsNum K} {n : Node K} {id : Nat} {d : Device K} {m : RosMsg K} (hd : n.Holds id m.kind d)
    (hp : m.kind = .camera → id ∈ n.publishers) :
    match n.callback N G id m with
    | .ok n' => ∃ d', d.take N G n.ekf n.frameCount m = .ok (d', n'.ekf, n'.frameCount) ∧ n'.Holds id m.kind d' ∧ n.Beside id n' ∧
        n'.published = n.published ++ (if m.kind = .camera then [id] else [])
    | .error err => d.take N G n.ekf n.frameCount m = .error err ∨ m.Bad err := by
  cases m with
  | imu m =>
    cases d with
    | imu u =>
      have hd : n.imus.find? id = some u := hd
      simp only [Node.callback, Node.imuCallback, hd, rosTime_eq, rosToMat_eq, Device.take]
      cases h : u.update N n.ekf (m.stamp.sec + m.stamp.nanosec / 10 ^ 9) m.linAcc
        (Matrix.of fun (i j : Fin 3) => m.linAccCov ⟨3 * i + j, by omega⟩) m.angVel (Matrix.of fun (i j : Fin 3) => m.angVelCov ⟨3 * i + j, by omega⟩) with
      | error err => exact Or.inl rfl
      | ok r =>
        refine ⟨.imu r.1, rfl, UMap.find?_insert_self _ _ _, ⟨rfl, rfl, rfl, rfl, fun k hk => UMap.find?_insert_ne _ _ hk, fun _ _ => rfl,
          fun _ _ => rfl⟩, ?_⟩
        simp [RosMsg.kind]
    | gps u => exact False.elim hd
    | camera c => exact False.elim hd
  | fix m =>
    cases d with
    | imu u => exact False.elim hd
    | gps u =>
      have hd : n.gpss.find? id = some u := hd
      simp only [Node.callback, Node.gpsCallback, hd, GpsUpdater.callback, RosFix.toMsg, rosTime_eq, Device.take]
      cases h : (n.ekf.calculateLocalTime (m.stamp.sec + m.stamp.nanosec / 10 ^ 9)).2.predict N.toPrim
        (n.ekf.calculateLocalTime (m.stamp.sec + m.stamp.nanosec / 10 ^ 9)).1 with
      | error err =>
        refine Or.inl ?_
        unfold GpsUpdater.update
        dsimp only
        rw [h]
        rfl
      | ok e' =>
        rw [ok_bind]
        cases hl : e'.isLlaInitialized with
        | true => exact Or.inr rfl
        | false =>
          rw [guardUB_true rfl, ok_bind, GpsUpdater.update_cov h hl (c' := M3.toMat (Matrix.of fun (i j : Fin 3) => m.positionCov ⟨3 * i + j, by omega⟩))]
          cases hu : u.update N G n.ekf (m.stamp.sec + m.stamp.nanosec / 10 ^ 9) ![m.latitude, m.longitude, m.altitude]
            (M3.toMat (Matrix.of fun (i j : Fin 3) => m.positionCov ⟨3 * i + j, by omega⟩)) with
          | error err => exact Or.inl rfl
          | ok r =>
            refine ⟨.gps r.1, rfl, UMap.find?_insert_self _ _ _, ⟨rfl, rfl, rfl, rfl, fun _ _ => rfl, fun k hk => UMap.find?_insert_ne _ _ hk,
              fun _ _ => rfl⟩, ?_⟩
            simp [RosMsg.kind]
    | camera c => exact False.elim hd
  | image m =>
    cases d with
    | imu u => exact False.elim hd
    | gps u => exact False.elim hd
    | camera c =>
      have hd : n.cams.find? id = some c := hd
      simp only [Node.callback, Node.cameraCallback, hd, rosTime_eq, Device.take]
      by_cases hc : (m.empty = false ∧ ¬(c.trackers = [] ∧ c.fiducials = [])) → m.channels = 1
      · rw [guardUB_true hc, ok_bind]
        cases h : c.callback N n.ekf ⟨m.stamp.sec + m.stamp.nanosec / 10 ^ 9, n.frameCount, m.empty, m.points, m.boards⟩ with
        | error err => exact Or.inl rfl
        | ok r =>
          obtain ⟨c', e, ds⟩ := r
          simp only [ok_bind]
          rw [guardUB_true (hp rfl), ok_bind]
          refine ⟨.camera c', rfl, UMap.find?_insert_self _ _ _, ⟨rfl, rfl, rfl, rfl, fun _ _ => rfl, fun _ _ => rfl,
            fun k hk => UMap.find?_insert_ne _ _ hk⟩, ?_⟩
          simp [RosMsg.kind]
      · rw [guardUB, if_neg hc]
        refine Or.inr ⟨rfl, fun h => hc fun _ => h⟩

theorem take_other {N : Num K} {G : GpsNum K} {n : Node K} {id : Nat} {s : RosKind} {d : Device K} {m : RosMsg K} (hd : n.Holds id s d)
    (hs : s ≠ m.kind) {e : Ekf K} {f : Nat} : d.take N G e f m = .ok (d, e, f) := by
  cases m <;> cases s <;> first | exact absurd rfl hs | skip
  all_goals cases d <;> first | exact False.elim hd | rfl

/-! ## One message -/

/-- The subscription is to the sensor. -/
def Node.Serves (n : Node K) (s : String × RosKind × Nat) (d : String × Device K) : Prop := s.1 = d.1 ∧ n.Holds s.2.2 s.2.1 d.2

/-- The cameras among the subscriptions to a topic. -/
def camerasOn (topic : String) (ss : List (String × RosKind × Nat)) : List Nat :=
  (ss.filter fun s => s.1 = topic ∧ s.2.1 = .camera).map fun s => s.2.2

theorem dispatch_hear {N : Num K} {G : GpsNum K} {topic : String} {m : RosMsg K} {ss : List (String × RosKind × Nat)} :
    ∀ {ds : List (String × Device K)} {n : Node K}, (ss.map fun s => s.2.2).Nodup → List.Forall₂ n.Serves ss ds →
      (∀ s ∈ ss, s.2.1 = .camera → s.2.2 ∈ n.publishers) →
      match Node.dispatch N G topic m ss n with
      | .ok n' => ∃ ds', Rig.hear N G topic m ds n.ekf n.frameCount = .ok (ds', n'.ekf, n'.frameCount) ∧ List.Forall₂ n'.Serves ss ds' ∧
          (∀ id, id ∉ ss.map (fun s => s.2.2) → ∀ k d, n.Holds id k d → n'.Holds id k d) ∧
          n'.subs = n.subs ∧ n'.sensorCount = n.sensorCount ∧ n'.publishers = n.publishers ∧ n'.warnings = n.warnings ∧
          n'.published = n.published ++ (if m.kind = .camera then camerasOn topic ss else [])
      | .error err => Rig.hear N G topic m ds n.ekf n.frameCount = .error err ∨ m.Bad err := by
  induction ss with
  | nil =>
    intro ds n _ hf _
    cases hf
    exact ⟨[], rfl, .nil, fun _ _ _ _ h => h, rfl, rfl, rfl, rfl, by simp [camerasOn]⟩
  | cons s ss ih =>
    intro ds n hn hf hp
    cases hf with
    | @cons _ td _ ds hd hf =>
    obtain ⟨t, d⟩ := td
    obtain ⟨rfl, hd⟩ : s.1 = t ∧ n.Holds s.2.2 s.2.1 d := hd
    rw [List.map_cons, List.nodup_cons] at hn
    have hps : ∀ x ∈ ss, x.2.1 = .camera → x.2.2 ∈ n.publishers := fun x hx => hp x (List.mem_cons_of_mem _ hx)
    have main : ∀ {n1 : Node K} {d1 : Device K}, n1.Holds s.2.2 s.2.1 d1 → n.Beside s.2.2 n1 →
        n1.published = n.published ++ (if m.kind = .camera then (if s.1 = topic ∧ s.2.1 = .camera then [s.2.2] else []) else []) →
        match Node.dispatch N G topic m ss n1 with
        | .ok n' => ∃ ds', (do
              let (ds, e, f) ← Rig.hear N G topic m ds n1.ekf n1.frameCount
              pure ((s.1, d1) :: ds, e, f)) = .ok (ds', n'.ekf, n'.frameCount) ∧ List.Forall₂ n'.Serves (s :: ss) ds' ∧
            (∀ id, id ∉ (s :: ss).map (fun s => s.2.2) → ∀ k d, n.Holds id k d → n'.Holds id k d) ∧
            n'.subs = n.subs ∧ n'.sensorCount = n.sensorCount ∧ n'.publishers = n.publishers ∧ n'.warnings = n.warnings ∧
            n'.published = n.published ++ (if m.kind = .camera then camerasOn topic (s :: ss) else [])
        | .error err => (do
              let (ds, e, f) ← Rig.hear N G topic m ds n1.ekf n1.frameCount
              pure ((s.1, d1) :: ds, e, f)) = .error err ∨ m.Bad err := by
      intro n1 d1 hd1 h3 h4
      have hf1 : List.Forall₂ n1.Serves ss ds := by
        have hf2 := (List.forall₂_and_left _ _).2 ⟨fun x hx => show x.2.2 ≠ s.2.2 from fun h => hn.1 (h ▸ List.mem_map_of_mem hx), hf⟩
        exact hf2.imp fun x y hxy => ⟨hxy.2.1, h3.holds hxy.1 hxy.2.2⟩
      have hi := ih hn.2 hf1 (h3.publishers ▸ hps)
      cases hdp : Node.dispatch N G topic m ss n1 with
      | error err =>
        rw [hdp] at hi
        rcases hi with hi | hi
        · left
          rw [hi]
          rfl
        · exact Or.inr hi
      | ok n' =>
        rw [hdp] at hi
        obtain ⟨ds', g1, g2, g3, g4, g5, g6, g7, g8⟩ := hi
        refine ⟨(s.1, d1) :: ds', by rw [g1]; rfl, .cons ⟨rfl, g3 _ hn.1 _ _ hd1⟩ g2, ?_, g4.trans h3.subs, g5.trans h3.sensorCount,
          g6.trans h3.publishers, g7.trans h3.warnings, ?_⟩
        · intro id hid k d hkd
          rw [List.map_cons, List.mem_cons, not_or] at hid
          exact g3 id hid.2 k d (h3.holds hid.1 hkd)
        · rw [g8, h4, List.append_assoc]
          congr 1
          by_cases hm : m.kind = .camera
          · simp only [if_pos hm, camerasOn, List.filter_cons]
            by_cases hq : s.1 = topic ∧ s.2.1 = .camera
            · simp [hq]
            · simp [hq]
          · simp only [if_neg hm, List.append_nil]
    rw [Node.dispatch, Rig.hear]
    by_cases hk : s.2.1 = m.kind
    · by_cases ht : s.1 = topic
      · rw [if_pos ⟨ht, hk⟩, if_pos ht]
        have hc := callback_take (N := N) (G := G) (hk ▸ hd) (fun h => hp s List.mem_cons_self (hk.trans h))
        cases hcb : n.callback N G s.2.2 m with
        | error err =>
          rw [hcb] at hc
          rcases hc with hc | hc
          · rw [hc]
            exact Or.inl rfl
          · exact Or.inr hc
        | ok n1 =>
          rw [hcb] at hc
          obtain ⟨d', h1, h2, h3, h4⟩ := hc
          rw [h1, ok_bind, ok_bind]
          exact main (by rw [hk]; exact h2) h3 (by rw [h4, ht, hk]; simp)
      · rw [if_neg (fun h => ht h.1), if_neg ht]
        exact main hd ⟨rfl, rfl, rfl, rfl, fun _ _ => rfl, fun _ _ => rfl, fun _ _ => rfl⟩ (by simp [ht])
    · rw [if_neg (fun h => hk h.2), take_other hd hk]
      have := main hd ⟨rfl, rfl, rfl, rfl, fun _ _ => rfl, fun _ _ => rfl, fun _ _ => rfl⟩ (by
        by_cases hm : m.kind = .camera
        · rw [hm] at hk
          simp [hk]
        · simp [hm])
      by_cases ht : s.1 = topic
      · rw [if_pos ht]
        exact this
      · rw [if_neg ht]
        exact this

/-! ## Every history -/

/-- What holds between messages. -/
structure Node.Sound (n : Node K) (r : Rig K) : Prop where
  agrees : n.Agrees r
  count : n.sensorCount = n.subs.length
  ids : n.subs.map (fun s => s.2.2) = (List.range n.subs.length).map (· + 1)
  pubs : ∀ s ∈ n.subs, s.2.1 = .camera → s.2.2 ∈ n.publishers
  quiet : n.warnings = 0

theorem Node.Sound.nodup {n : Node K} {r : Rig K} (h : n.Sound r) : (n.subs.map fun s => s.2.2).Nodup := by
  rw [h.ids]
  exact List.Nodup.map (fun a b h => Nat.succ.inj h) List.nodup_range

theorem Node.Sound.fresh {n : Node K} {r : Rig K} (h : n.Sound r) : ∀ s ∈ n.subs, s.2.2 ≠ n.subs.length + 1 := by
  intro s hs he
  have : s.2.2 ∈ n.subs.map (fun s => s.2.2) := List.mem_map_of_mem hs
  rw [h.ids, List.mem_map] at this
  obtain ⟨a, ha, hb⟩ := this
  rw [List.mem_range] at ha
  omega

/-- Adding an entry to the tables and the subscriptions. -/
theorem Node.Sound.extend {n n' : Node K} {r : Rig K} (h : n.Sound r) {topic : String} {k : RosKind} {d : Device K}
    (hs : n'.subs = n.subs ++ [(topic, k, n.subs.length + 1)]) (hc : n'.sensorCount = n.subs.length + 1) (hf : n'.frameCount = n.frameCount)
    (hd : n'.Holds (n.subs.length + 1) k d) (hb : ∀ i, i ≠ n.subs.length + 1 → ∀ k d, n.Holds i k d → n'.Holds i k d)
    (hp : ∀ i, i ∈ n.publishers ∨ k = .camera ∧ i = n.subs.length + 1 → i ∈ n'.publishers) (hw : n'.warnings = n.warnings) :
    n'.Sound ⟨n'.ekf, r.frame, r.devices ++ [(topic, d)]⟩ := by
  refine ⟨⟨rfl, hf.trans h.agrees.2.1, ?_⟩, ?_, ?_, ?_, hw.trans h.quiet⟩
  · rw [hs]
    refine List.rel_append ?_ (.cons ⟨rfl, hd⟩ .nil)
    have := (List.forall₂_and_left _ _).2 ⟨h.fresh, h.agrees.2.2⟩
    exact this.imp fun x y hxy => ⟨hxy.2.1, hb _ hxy.1 _ _ hxy.2.2⟩
  · rw [hc, hs, List.length_append]
    rfl
  · rw [hs, List.map_append, h.ids, List.length_append]
    simp [List.range_succ]
  · intro s hm hk
    rw [hs, List.mem_append] at hm
    rcases hm with hm | hm
    · exact hp _ (Or.inl (h.pubs s hm hk))
    · rw [List.mem_singleton] at hm
      subst hm
      exact hp _ (Or.inr ⟨hk, rfl⟩)

theorem load_add {N : Num K} {n : Node K} {r : Rig K} (h : n.Sound r) (c : SensorConfig K) (hl : n.subs.length + 1 < 2 ^ 32) :
    match n.load N c with
    | .ok n' => ∃ r', r.add N c = .ok r' ∧ n'.Sound r' ∧ n'.subs.length = n.subs.length + 1
    | .error err => r.add N c = .error err := by
  have hid : succ32 n.sensorCount = n.subs.length + 1 := by rw [h.count, succ32, Nat.mod_eq_of_lt hl]
  have hdl : r.devices.length = n.subs.length := h.agrees.2.2.length_eq.symm
  cases c with
  | imu topic p =>
    simp only [Node.load, Rig.add, hid, hdl, ← h.agrees.1]
    cases newImuSensor N.toPrim n.ekf (n.subs.length + 1) p with
    | error err => rfl
    | ok e =>
      refine ⟨_, rfl, h.extend rfl rfl rfl (UMap.find?_insert_self _ _ _) ?_ ?_ rfl, by simp⟩
      · intro i hi k d hkd
        cases k <;> cases d <;> first | exact False.elim hkd | exact hkd | exact (UMap.find?_insert_ne _ _ hi).trans hkd
      · rintro i (hi | hi)
        · exact hi
        · exact nomatch hi.1
  | gps topic p =>
    simp only [Node.load, Rig.add, hid, hdl, ← h.agrees.1]
    cases newGpsSensor N.toPrim n.ekf (n.subs.length + 1) p with
    | error err => rfl
    | ok e =>
      refine ⟨_, rfl, h.extend rfl rfl rfl (UMap.find?_insert_self _ _ _) ?_ ?_ rfl, by simp⟩
      · intro i hi k d hkd
        cases k <;> cases d <;> first | exact False.elim hkd | exact hkd | exact (UMap.find?_insert_ne _ _ hi).trans hkd
      · rintro i (hi | hi)
        · exact hi
        · exact nomatch hi.1
  | camera topic p make board =>
    simp only [Node.load, Rig.add, hid, hdl, ← h.agrees.1]
    cases newCameraSensor N.toPrim n.ekf (n.subs.length + 1) p with
    | error err => rfl
    | ok e =>
      simp only [ok_bind]
      have fin : ∀ e : Ekf K, ({ n with
          ekf := e, sensorCount := n.subs.length + 1, cams := n.cams.insert (n.subs.length + 1) (make (n.subs.length + 1))
          subs := n.subs ++ [(topic, .camera, n.subs.length + 1)], publishers := n.publishers ++ [n.subs.length + 1] } : Node K).Sound
          ⟨e, r.frame, r.devices ++ [(topic, .camera (make (n.subs.length + 1)))]⟩ := by
        intro e
        refine h.extend rfl rfl rfl (UMap.find?_insert_self _ _ _) ?_ ?_ rfl
        · intro i hi k d hkd
          cases k <;> cases d <;> first | exact False.elim hkd | exact hkd | exact (UMap.find?_insert_ne _ _ hi).trans hkd
        · rintro i (hi | hi)
          · exact List.mem_append_left _ hi
          · rw [hi.2]
            exact List.mem_append_right _ (List.mem_singleton_self _)
      cases board with
      | none => exact ⟨_, rfl, fin e, by simp⟩
      | some b =>
        dsimp only
        cases newFiducialTracker N.toPrim e b with
        | error err => rfl
        | ok e => exact ⟨_, rfl, fin e, by simp⟩

theorem step_step {N : Num K} {G : GpsNum K} {n : Node K} {r : Rig K} (h : n.Sound r) (ev : Node.Event K)
    (hl : n.subs.length + Node.loads [ev] < 2 ^ 32) :
    match n.step N G ev with
    | .ok n' => ∃ r', r.step N G ev = .ok r' ∧ n'.Sound r' ∧ n'.subs.length = n.subs.length + Node.loads [ev]
    | .error err => r.step N G ev = .error err ∨ ∃ topic m, ev = .message topic m ∧ m.Bad err := by
  cases ev with
  | load c =>
    have hc := load_add (N := N) h c hl
    rw [Node.step, Rig.step]
    cases hn : n.load N c with
    | error err => rw [hn] at hc; exact Or.inl hc
    | ok n' => rw [hn] at hc; exact hc
  | message topic m =>
    have hd := dispatch_hear (N := N) (G := G) (topic := topic) (m := m) h.nodup h.agrees.2.2 h.pubs
    rw [Node.step, Rig.step, ← h.agrees.1, ← h.agrees.2.1]
    cases hn : Node.dispatch N G topic m n.subs n with
    | error err =>
      rw [hn] at hd
      rcases hd with hd | hd
      · rw [hd]
        exact Or.inl rfl
      · exact Or.inr ⟨topic, m, rfl, hd⟩
    | ok n' =>
      rw [hn] at hd
      obtain ⟨ds', g1, g2, -, g4, g5, g6, g7, -⟩ := hd
      rw [g1]
      refine ⟨⟨n'.ekf, n'.frameCount, ds'⟩, rfl, ⟨⟨rfl, rfl, ?_⟩, ?_, ?_, ?_, g7.trans h.quiet⟩, ?_⟩
      · rw [g4]; exact g2
      · rw [g5, g4]; exact h.count
      · rw [g4]; exact h.ids
      · rw [g4, g6]; exact h.pubs
      · rw [g4]; rfl

theorem loads_cons (ev : Node.Event K) (evs : List (Node.Event K)) : Node.loads (ev :: evs) = Node.loads [ev] + Node.loads evs := by
  cases ev <;> simp [Node.loads, Nat.add_comm]

theorem run_run {N : Num K} {G : GpsNum K} {evs : List (Node.Event K)} : ∀ {n : Node K} {r : Rig K}, n.Sound r →
    n.subs.length + Node.loads evs < 2 ^ 32 →
    match n.run N G evs with
    | .ok n' => ∃ r', r.run N G evs = .ok r' ∧ n'.Sound r'
    | .error err => r.run N G evs = .error err ∨ ∃ topic m, .message topic m ∈ evs ∧ m.Bad err := by
  induction evs with
  | nil => intro n r h _; exact ⟨r, rfl, h⟩
  | cons ev evs ih =>
    intro n r h hl
    rw [loads_cons] at hl
    have h1 := step_step (N := N) (G := G) h ev (by omega)
    rw [Node.run, Rig.run]
    cases hs : n.step N G ev with
    | error err =>
      rw [hs] at h1
      rcases h1 with h1 | ⟨topic, m, rfl, hm⟩
      · rw [h1]
        exact Or.inl rfl
      · exact Or.inr ⟨topic, m, List.mem_cons_self, hm⟩
    | ok n1 =>
      rw [hs] at h1
      obtain ⟨r1, h2, h3, h4⟩ := h1
      rw [h2, ok_bind, ok_bind]
      have h5 := ih h3 (by omega)
      cases hr : n1.run N G evs with
      | error err =>
        rw [hr] at h5
        rcases h5 with h5 | ⟨topic, m, hm, hb⟩
        · exact Or.inl h5
        · exact Or.inr ⟨topic, m, List.mem_cons_of_mem _ hm, hb⟩
      | ok n' =>
        rw [hr] at h5
        exact h5

theorem Node.Sound.start (e : Ekf K) : ({ ekf := e } : Node K).Sound ⟨e, 0, []⟩ :=
  ⟨⟨rfl, rfl, .nil⟩, rfl, rfl, fun _ h => by simp at h, rfl⟩

/-- **Every message reaches the sensors on its topic, and only those, as it was sent**: if a node gets through a history of
sensors being configured and messages arriving, then so does a list of sensors that each listen to their topic and read time,
values and covariances off the message; the filter is the same, and each subscription leads to a sensor in the same state.
No message ends in a warning about an unknown sensor.  If a node fails, the sensors fail in the same way, unless a GPS fix
or a colour image made it fail: a full statement would not have this exception. -/
theorem C70_delivered_partial {N : Num K} {G : GpsNum K} {e : Ekf K} {evs : List (Node.Event K)} (hl : Node.loads evs < 2 ^ 32) :
    match Node.run N G { ekf := e } evs with
    | .ok n => ∃ r, Rig.run N G ⟨e, 0, []⟩ evs = .ok r ∧ n.Agrees r ∧ n.warnings = 0
    | .error err => Rig.run N G ⟨e, 0, []⟩ evs = .error err ∨
        (err = .uninitialised ∧ ∃ topic m, .message topic (.fix m) ∈ evs) ∨
        err = .assertFailed ∧ ∃ topic m, .message topic (.image m) ∈ evs ∧ m.channels ≠ 1 := by
  have h := run_run (N := N) (G := G) (Node.Sound.start e) (evs := evs) (by simpa using hl)
  cases hr : Node.run N G { ekf := e } evs with
  | ok n =>
    rw [hr] at h
    obtain ⟨r, h1, h2⟩ := h
    exact ⟨r, h1, h2.agrees, h2.quiet⟩
  | error err =>
    rw [hr] at h
    rcases h with h | ⟨topic, m, h1, h2⟩
    · exact Or.inl h
    · cases m with
      | imu m => exact False.elim h2
      | fix m => exact Or.inr (Or.inl ⟨h2, topic, m, h1⟩)
      | image m => exact Or.inr (Or.inr ⟨h2.1, topic, m, h1, h2.2⟩)

/-- **Images are published once for each camera on their topic**, other messages not at all. -/
theorem C70_published {N : Num K} {G : GpsNum K} {e : Ekf K} {evs : List (Node.Event K)} {n n' : Node K} {topic : String} {m : RosMsg K}
    (hl : Node.loads evs < 2 ^ 32) (h : Node.run N G { ekf := e } evs = .ok n) (h' : n.step N G (.message topic m) = .ok n') :
    n'.published = n.published ++
      match m with
      | .image _ => (n.subs.filter fun s => s.1 = topic ∧ s.2.1 = .camera).map fun s => s.2.2
      | _ => [] := by
  have hr := run_run (N := N) (G := G) (Node.Sound.start e) (evs := evs) (by simpa using hl)
  rw [h] at hr
  obtain ⟨r, -, hs⟩ := hr
  have hd := dispatch_hear (N := N) (G := G) (topic := topic) (m := m) hs.nodup hs.agrees.2.2 hs.pubs
  have h' : Node.dispatch N G topic m n.subs n = .ok n' := h'
  rw [h'] at hd
  obtain ⟨-, -, -, -, -, -, -, -, hd⟩ := hd
  rw [hd]
  cases m <;> rfl

/-! ## What does not hold, and examples -/

namespace NodeSample

def gpsConfig : GpsConfig ℚ := ⟨false, 0, 1, ![1, 1, 1]⟩
def camConfig : CamConfig ℚ := ⟨false, CamState.default, ⟨0, fun _ => 0⟩⟩
def imuConfig (isIntrinsic : Bool) : ImuConfig ℚ := ⟨false, isIntrinsic, ImuState.default, ⟨12, fun _ => 1⟩⟩

def fix (sec : Int) : RosMsg ℚ := .fix ⟨⟨sec, 500000000⟩, 40, -80, 100, fun i => if i.val % 4 = 0 then 2 else 0⟩
def image (channels : Nat) (sec : Int) : RosMsg ℚ :=
  .image ⟨⟨sec, 0⟩, channels, false, fun _ => ⟨TrackSample.keys 1, TrackSample.knn, TrackSample.knn, List.replicate 10 1, 0⟩, fun _ => ⟨[], [], none⟩⟩
def imu (sec : Int) : RosMsg ℚ :=
  .imu ⟨⟨sec, 250000000⟩, ![0, 0, 49 / 5], 0, fun i => if i.val % 4 = 0 then 1 else 0, fun i => if i.val % 4 = 0 then 1 else 0⟩

def camera (id : Nat) : Camera ℚ := { WindowSample.camera 3 with id := id }

end NodeSample

open NodeSample

/-- **Violated for GPS fixes**: with the default configuration (a constant reference, ekf_cal_node.cpp:72), the first fix makes
the filter read a covariance that nobody has written, although the message has one. -/
theorem C70_fix_violated : ∃ (N : Num ℚ) (G : GpsNum ℚ) (e : Ekf ℚ) (evs : List (Node.Event ℚ)) (r : Rig ℚ),
    N.toPrim.InvLaw ∧ e = Ekf.init N.toPrim (Samples.params .none false) ∧ Node.loads evs < 2 ^ 32 ∧
    Node.run N G { ekf := e } evs = .error .uninitialised ∧ Rig.run N G ⟨e, 0, []⟩ evs = .ok r := by
  have h : ∃ r, Rig.run Samples.diagNum Samples.gpsNum ⟨Ekf.init Samples.diagNum.toPrim (Samples.params .none false), 0, []⟩
      [.load (.gps "/fix" gpsConfig), .message "/fix" (fix 10)] = .ok r ∧ True :=
    Samples.ok_of_check (P := fun _ : Rig ℚ => True) (by decide +kernel)
  obtain ⟨r, hr, -⟩ := h
  exact ⟨Samples.diagNum, Samples.gpsNum, _, _, r, Samples.diagNum_inv, rfl, by decide, rfl, hr⟩

/-- **Violated for colour images**: a camera with a tracker fails on an image with three channels. -/
theorem C70_colour_violated : ∃ (N : Num ℚ) (G : GpsNum ℚ) (e : Ekf ℚ) (evs : List (Node.Event ℚ)) (r : Rig ℚ),
    N.toPrim.InvLaw ∧ e = Ekf.init N.toPrim (Samples.params .all false) ∧ Node.loads evs < 2 ^ 32 ∧
    Node.run N G { ekf := e } evs = .error .assertFailed ∧ Rig.run N G ⟨e, 0, []⟩ evs = .ok r := by
  have h : ∃ r, Rig.run Samples.diagNum Samples.gpsNum ⟨Ekf.init Samples.diagNum.toPrim (Samples.params .all false), 0, []⟩
      [.load (.camera "/image" camConfig NodeSample.camera none), .message "/image" (NodeSample.image 3 10)] = .ok r ∧ True :=
    Samples.ok_of_check (P := fun _ : Rig ℚ => True) (by decide +kernel)
  obtain ⟨r, hr, -⟩ := h
  exact ⟨Samples.diagNum, Samples.gpsNum, _, _, r, Samples.diagNum_inv, rfl, by decide, rfl, hr⟩

/-- Two cameras on one topic, an inertial sensor, and messages on their topics and on others. -/
example : ∃ n, Node.run Samples.diagNum Samples.gpsNum { ekf := Ekf.init Samples.diagNum.toPrim (Samples.params .all false) }
    [.load (.camera "/image" camConfig NodeSample.camera none), .load (.imu "/imu" (imuConfig true)),
      .load (.camera "/image" camConfig NodeSample.camera none), .message "/other" (NodeSample.image 3 9), .message "/imu" (NodeSample.imu 9),
      .message "/image" (NodeSample.image 1 10)] = .ok n ∧
    n.published = [1, 3] ∧ n.frameCount = 2 ∧ n.warnings = 0 ∧ n.ekf.currentTime = 3 / 4 :=
  Samples.ok_of_check (P := fun n : Node ℚ => n.published = [1, 3] ∧ n.frameCount = 2 ∧ n.warnings = 0 ∧ n.ekf.currentTime = 3 / 4)
    (by decide +kernel)

/-- Stamps with a second more and fewer nanoseconds. -/
example : (rosTime ⟨3, 999999999⟩ : ℚ) < rosTime ⟨4, 1⟩ := (C70_time _ _ (by norm_num) (by norm_num)).2 (Or.inl (by norm_num))

end EkfCal
