import Verif.Spec.Surer
import Verif.Props.C86
import Verif.Props.C09

/-!
# C88 — who knows more stays more certain
-/

set_option linter.unusedSectionVars false

namespace EkfCal
open Ekf Finset
variable {K : Type} [Field K] [LinearOrder K] [IsStrictOrderedRing K]

theorem Within.refl (n : Nat) (P : Nat → Nat → K) : Within n P P := fun _ => le_rfl

theorem Within.moved {m : Nat} {P Q : Nat → Nat → K} (h : Within m P Q) (n : Nat) (T : Nat → Nat → K) :
    Within n (congr m T P) (congr m T Q) := fun x => by
  rw [quad_congr, quad_congr]; exact h _

theorem Within.add {n : Nat} {P Q P' Q' : Nat → Nat → K} (h : Within n P Q) (h' : Within n P' Q') :
    Within n (fun i j => P i j + P' i j) (fun i j => Q i j + Q' i j) := fun x => by
  rw [quad_add, quad_add]; exact add_le_add (h x) (h' x)

theorem Within.ext {n : Nat} {P Q P' Q' : Nat → Nat → K} (h : Within n P Q) (hp : ∀ i j, i < n → j < n → P' i j = P i j)
    (hq : ∀ i j, i < n → j < n → Q' i j = Q i j) : Within n P' Q' := fun x => by
  rw [quad_ext hp, quad_ext hq]; exact h x

theorem Within.diag {n : Nat} {p q : Nat → K} (h : ∀ i, i < n → p i ≤ q i) :
    Within n (fun i j => if i = j then p i else 0) (fun i j => if i = j then q i else 0) := fun x => by
  rw [quad_diag, quad_diag]
  exact sum_le_sum fun i hi => mul_le_mul_of_nonneg_right (h i (mem_range.1 hi)) (mul_self_nonneg _)

/-- Numbers taken from (or repeated out of) two estimates. -/
theorem Within.taken {m : Nat} {P Q : Nat → Nat → K} (h : Within m P Q) (n : Nat) (σ : Nat → Nat) (hσ : ∀ i, i < n → σ i < m) :
    Within n (fun i j => P (σ i) (σ j)) (fun i j => Q (σ i) (σ j)) := by
  have key : ∀ P : Nat → Nat → K, ∀ i j, i < n → j < n → P (σ i) (σ j) = congr m (fun i k => if σ i = k then 1 else 0) P i j := by
    intro P i j hi hj
    unfold congr
    rw [sum_eq_single (σ i) (fun k _ hk => by simp [Ne.symm hk]) (fun hk => absurd (mem_range.2 (hσ i hi)) hk),
      sum_eq_single (σ j) (fun k _ hk => by simp [Ne.symm hk]) (fun hk => absurd (mem_range.2 (hσ j hj)) hk)]
    simp
  exact (h.moved n _).ext (key P) (key Q)

theorem Within.joseph {n : Nat} {P Q : Nat → Nat → K} (h : Within n P Q) (H : Mat K) {R R' : Mat K} (hR : Within H.rows R.get R'.get)
    (G : Nat → Nat → K) : Within n (joseph n P H R G) (joseph n Q H R' G) :=
  (h.moved n _).add (hR.moved n G)

/-- Two filters measure the same quantity; the one that was more certain and measures at least as well is the more certain one
afterwards, whatever the two estimates and readings.  Either form of the filter. -/
theorem C88_update (N : Prim K) (hN : N.Lawful) (e e' f f' : Ekf K) (H : Mat K) (r s : Vec K) (R S : Mat K)
    (he : Measured N e H r R e') (hf : Measured N f H s S f') (Ri Si : Nat → Nat → K) (hRi : AreInverse H.rows R.get Ri)
    (hSi : AreInverse H.rows S.get Si) (hRS : Within H.rows R.get S.get) (h : e.Surer f) : e'.Surer f' := by
  obtain ⟨A, hA⟩ := C86_innovation N e e' H r R he Ri hRi
  obtain ⟨B, hB⟩ := C86_innovation N f f' H s S hf Si hSi
  obtain ⟨_, a2, _, _⟩ := measured_form N hN e e' H r R he A hA
  obtain ⟨_, b2, _, b4⟩ := measured_form N hN f f' H s S hf B hB
  refine ⟨by rw [a2, b2, h.size], fun x => ?_⟩
  rw [a2]
  refine (C86_gain N hN e e' H r R he Ri hRi (kalmanGain f.cov.rows f.P H B) x).trans ?_
  refine (h.within.joseph H hRS _ x).trans (le_of_eq ?_)
  rw [← h.size]
  exact (quad_ext b4 x).symm

/-- A measurement never costs certainty. -/
theorem C88_measurement (N : Prim K) (hN : N.Lawful) (e e' : Ekf K) (H : Mat K) (r : Vec K) (R : Mat K) (h : Measured N e H r R e')
    (Ri : Nat → Nat → K) (hRi : AreInverse H.rows R.get Ri) : e'.Surer e := by
  obtain ⟨A, hA⟩ := C86_innovation N e e' H r R h Ri hRi
  obtain ⟨_, a2, _, _⟩ := measured_form N hN e e' H r R h A hA
  refine ⟨a2.symm, fun x => ?_⟩
  rw [a2]
  refine (C86_gain N hN e e' H r R h Ri hRi (fun _ _ => 0) x).trans (le_of_eq (quad_ext (fun i j hi hj => ?_) x))
  simp [joseph, congr, hi, hj]

/-- A measurement with more rows leaves more certainty than one with only some of them. -/
theorem C88_more_rows (N : Prim K) (hN : N.Lawful) (e e₁ e₁₂ e' : Ekf K) (H₁ R₁ H₂ R₂ : Mat K) (r₁ r₂ r₂' : Vec K)
    (h₁ : Measured N e H₁ r₁ R₁ e₁) (h₁₂ : Measured N e₁ H₂ r₂' R₂ e₁₂)
    (h' : Measured N e (H₁.above H₂) (r₁.andThen r₂) (R₁.beside R₂) e')
    (Ri₁ Ri₂ : Nat → Nat → K) (hRi₁ : AreInverse H₁.rows R₁.get Ri₁) (hRi₂ : AreInverse H₂.rows R₂.get Ri₂)
    (x : Nat → K) : quad e.cov.rows e'.P x ≤ quad e.cov.rows e₁.P x := by
  have h1 := (C86_together N hN e e₁ e₁₂ e' H₁ R₁ H₂ R₂ r₁ r₂ r₂' h₁ h₁₂ h' Ri₁ Ri₂ hRi₁ hRi₂).1
  obtain ⟨A, hA⟩ := C86_innovation N e e₁ H₁ r₁ R₁ h₁ Ri₁ hRi₁
  obtain ⟨_, a2, _, _⟩ := measured_form N hN e e₁ H₁ r₁ R₁ h₁ A hA
  rw [← quad_ext h1]
  have hs := C88_measurement N hN e₁ e₁₂ H₂ r₂' R₂ h₁₂ Ri₂ hRi₂
  rw [← a2, hs.size]
  exact hs.within x

/-- Cloning keeps the order. -/
theorem C88_clone (P Q P' Q' : Mat K) (index : Nat) (hP : P.rows = P.cols) (hQ : Q.rows = Q.cols) (hs : Q.rows = P.rows)
    (h12 : 12 ≤ index) (hi : index ≤ P.rows) (hp : augmentCovariance false P index = .ok P')
    (hq : augmentCovariance false Q index = .ok Q') (h : Within P.rows P.get Q.get) : Within P'.rows P'.get Q'.get := by
  obtain ⟨_, p1, p2, _, p4⟩ := augmentCovariance_spec P index hP h12 hi
  obtain ⟨_, q1, _, _, q4⟩ := augmentCovariance_spec Q index hQ h12 (hs ▸ hi)
  obtain rfl := Except.ok.inj (hp.symm.trans p1)
  obtain rfl := Except.ok.inj (hq.symm.trans q1)
  rw [p2]
  refine (h.taken (P.rows + 6) (cloneSource index) fun i hi' => ?_).ext p4 (hs ▸ q4)
  unfold cloneSource
  split_ifs <;> omega

/-- Dropping numbers from the estimate keeps the order. -/
theorem C88_drop (P Q P' Q' : Mat K) (index n : Nat) (hP : P.rows = P.cols) (hQ : Q.rows = Q.cols) (hs : Q.rows = P.rows)
    (hi : index + n ≤ P.rows) (hp : removeFromMatrix P index index n = .ok P')
    (hq : removeFromMatrix Q index index n = .ok Q') (h : Within P.rows P.get Q.get) : Within P'.rows P'.get Q'.get := by
  obtain ⟨_, p1, p2, _, p4⟩ := removeFromMatrix_spec P index index n hi (hP ▸ hi)
  obtain ⟨_, q1, _, _, q4⟩ := removeFromMatrix_spec Q index index n (hs ▸ hi) (hQ ▸ hs ▸ hi)
  obtain rfl := Except.ok.inj (hp.symm.trans p1)
  obtain rfl := Except.ok.inj (hq.symm.trans q1)
  rw [p2]
  refine (h.taken (P.rows - n) (shiftUp index n) fun i hi' => ?_).ext (fun i j hi hj => p4 i j hi (hP ▸ hj))
    (fun i j hi hj => q4 i j (hs ▸ hi) (hQ ▸ hs ▸ hj))
  unfold shiftUp
  split_ifs <;> omega

/-! ## Histories -/

/-- The two filters are in step and the first is the more certain one. -/
structure Abreast (N : Prim K) (e f : Ekf K) : Prop where
  left : CovInv N e
  right : CovInv N f
  time : f.currentTime = e.currentTime
  gravity : f.isGravityInitialized = e.isGravityInitialized
  untimed : ¬ AugType.Timed e.augType ∧ ¬ AugType.Timed f.augType
  noise : ∀ i, e.processNoise.get i i ≤ f.processNoise.get i i
  surer : e.Surer f

theorem surer_std {e f : Ekf K} (he : e.useRoot = false) (hf : f.useRoot = false) :
    e.Surer f ↔ f.cov.rows = e.cov.rows ∧ Within e.cov.rows e.cov.get f.cov.get := by
  have h1 : e.P = e.cov.get := by funext i j; simp [Ekf.P, he]
  have h2 : f.P = f.cov.get := by funext i j; simp [Ekf.P, hf]
  exact ⟨fun h => ⟨h.1, h1 ▸ h2 ▸ h.2⟩, fun h => ⟨h.1, by rw [h1, h2]; exact h.2⟩⟩

theorem abreast_predict {N : Prim K} {e f e' f' : Ekf K} {t : K} (h : Abreast N e f) (he : predict N e t = .ok e')
    (hf : predict N f t = .ok f') : Abreast N e' f' := by
  have ce : CovInv N e' := covInv_step h.left (op := .predict t) trivial trivial he
  have cf : CovInv N f' := covInv_step h.right (op := .predict t) trivial trivial hf
  obtain ⟨t1, rfl⟩ | ⟨t1, b, out, hb, he⟩ := predict_form he
  · obtain ⟨t2, rfl⟩ | ⟨t2, _⟩ := predict_form hf
    · exact h
    · exact absurd t2 (not_le.2 (h.time ▸ t1))
  · obtain ⟨t2, rfl⟩ | ⟨t2, b', out', hb', hf⟩ := predict_form hf
    · exact absurd t1 (not_le.2 (h.time ▸ t2))
    · obtain ⟨_, rfl⟩ | ⟨h0, _⟩ := augmentTimed_form he
      swap; · exact absurd h0 h.untimed.1
      obtain ⟨_, rfl⟩ | ⟨h0, _⟩ := augmentTimed_form hf
      swap; · exact absurd h0 h.untimed.2
      have hs := (surer_std h.left.root h.right.root).1 h.surer
      refine ⟨ce, cf, rfl, h.gravity, h.untimed, h.noise, (surer_std (by exact h.left.root) (by exact h.right.root)).2 ?_⟩
      obtain ⟨g, _, rfl⟩ | ⟨g, _, ho⟩ := hb <;> obtain ⟨g', _, rfl⟩ | ⟨g', _, ho'⟩ := hb'
      · exact hs
      · rw [h.gravity, g] at g'; cases g'
      · rw [h.gravity, g] at g'; cases g'
      · have n1 := h.left.inv
        have n2 := h.right.inv
        have l18 : 18 ≤ e.cov.rows := by rw [n1.covRows, n1.size]; unfold State.dim; omega
        obtain ⟨_, p1, p2, _, p4⟩ := predictCov_spec N e.cov e.processNoise (t - e.currentTime) (by rw [n1.covRows, n1.covCols]) l18
          (by rw [n1.noiseRows, n1.covRows]) (by rw [n1.noiseCols, n1.covRows])
        obtain ⟨_, q1, q2, _, q4⟩ := predictCov_spec N f.cov f.processNoise (t - f.currentTime) (by rw [n2.covRows, n2.covCols])
          (hs.1 ▸ l18) (by rw [n2.noiseRows, n2.covRows]) (by rw [n2.noiseCols, n2.covRows])
        rw [h.left.root, ← n1.covRows] at ho
        rw [h.right.root, ← n2.covRows] at ho'
        obtain rfl := Except.ok.inj (ho.symm.trans p1)
        obtain rfl := Except.ok.inj (ho'.symm.trans q1)
        refine ⟨by show out'.rows = out.rows; rw [p2, q2, hs.1], ?_⟩
        show Within out.rows out.get out'.get
        rw [p2]
        have base : Within e.cov.rows (fun k l => e.cov.get k l + if k = l then e.processNoise.get k k * (t - e.currentTime) else 0)
            (fun k l => f.cov.get k l + if k = l then f.processNoise.get k k * (t - e.currentTime) else 0) :=
          hs.2.add (Within.diag fun i _ => mul_le_mul_of_nonneg_right (h.noise i) (sub_nonneg.2 t1))
        refine (base.moved e.cov.rows (transition (t - e.currentTime))).ext p4 ?_
        rw [← hs.1, ← h.time]
        exact q4

theorem kalman_rest {N : Prim K} {e e' : Ekf K} {H R : Mat K} {r : Vec K} (h : kalmanUpdate N e H r R = .ok e') :
    ∃ s c, e' = { e with state := s, cov := c } := by
  obtain ⟨s, c, v, rfl, _⟩ := kalmanUpdate_form h
  exact ⟨s, c, rfl⟩

theorem abreast_both {N : Prim K} (hN : N.Lawful) {e f e' f' : Ekf K} {H R S : Mat K} {r s : Vec K} (h : Abreast N e f)
    (hR : R.IsCov) (hS : S.IsCov) (iR : ∃ Ri, AreInverse H.rows R.get Ri) (iS : ∃ Si, AreInverse H.rows S.get Si)
    (hRS : Within H.rows R.get S.get) (he : kalmanUpdate N e H r R = .ok e') (hf : kalmanUpdate N f H s S = .ok f') :
    Abreast N e' f' := by
  have ce : CovInv N e' := covInv_step h.left (op := .kalman H r R) trivial hR he
  have cf : CovInv N f' := covInv_step h.right (op := .kalman H s S) trivial hS hf
  obtain ⟨Ri, iR⟩ := iR
  obtain ⟨Si, iS⟩ := iS
  have hs := C88_update N hN e e' f f' H r s R S ⟨fun _ => h.left.cov, hR, fun x => absurd x (by rw [h.left.root]; simp), he⟩
    ⟨fun _ => h.right.cov, hS, fun x => absurd x (by rw [h.right.root]; simp), hf⟩ Ri Si iR iS hRS h.surer
  obtain ⟨_, _, rfl⟩ := kalman_rest he
  obtain ⟨_, _, rfl⟩ := kalman_rest hf
  exact ⟨ce, cf, h.time, h.gravity, h.untimed, h.noise, hs⟩

theorem Ekf.Surer.trans {e f g : Ekf K} (h : e.Surer f) (h' : f.Surer g) : e.Surer g :=
  ⟨h'.1.trans h.1, fun x => (h.2 x).trans (h.1 ▸ h'.2 x)⟩

theorem abreast_first {N : Prim K} (hN : N.Lawful) {e f e' : Ekf K} {H R : Mat K} {r : Vec K} (h : Abreast N e f)
    (hR : R.IsCov) (iR : ∃ Ri, AreInverse H.rows R.get Ri) (he : kalmanUpdate N e H r R = .ok e') : Abreast N e' f := by
  have ce : CovInv N e' := covInv_step h.left (op := .kalman H r R) trivial hR he
  obtain ⟨Ri, iR⟩ := iR
  have hs := C88_measurement N hN e e' H r R ⟨fun _ => h.left.cov, hR, fun x => absurd x (by rw [h.left.root]; simp), he⟩ Ri iR
  obtain ⟨_, _, rfl⟩ := kalman_rest he
  exact ⟨ce, h.right, h.time, h.gravity, h.untimed, h.noise, hs.trans h.surer⟩

theorem abreast_run {N : Prim K} (hN : N.Lawful) : ∀ (evs : List (Shared K)) {e f e' f' : Ekf K}, Abreast N e f → (∀ ev ∈ evs, ev.OK) →
    run N e (evs.flatMap Shared.left) = .ok e' → run N f (evs.flatMap Shared.right) = .ok f' → Abreast N e' f'
  | [], e, f, e', f', h, _, he, hf => by cases he; cases hf; exact h
  | ev :: evs, e, f, e', f', h, ok, he, hf => by
    have h1 := ok ev (List.mem_cons_self ..)
    have h2 : ∀ ev ∈ evs, ev.OK := fun x hx => ok x (List.mem_cons_of_mem _ hx)
    cases ev with
    | predict t =>
      simp only [List.flatMap_cons, Shared.left, Shared.right, List.cons_append, List.nil_append, run, step, bind_ok_iff] at he hf
      obtain ⟨e1, he1, he⟩ := he
      obtain ⟨f1, hf1, hf⟩ := hf
      exact abreast_run hN evs (abreast_predict h he1 hf1) h2 he hf
    | both H r₁ r₂ R₁ R₂ =>
      simp only [List.flatMap_cons, Shared.left, Shared.right, List.cons_append, List.nil_append, run, step, bind_ok_iff] at he hf
      obtain ⟨e1, he1, he⟩ := he
      obtain ⟨f1, hf1, hf⟩ := hf
      obtain ⟨a, b, c, d, g⟩ := h1
      exact abreast_run hN evs (abreast_both hN h a b c d g he1 hf1) h2 he hf
    | first H r R =>
      simp only [List.flatMap_cons, Shared.left, Shared.right, List.cons_append, List.nil_append, run, step, bind_ok_iff] at he hf
      obtain ⟨e1, he1, he⟩ := he
      exact abreast_run hN evs (abreast_first hN h h1.1 h1.2 he1) h2 he hf

/-- Two filters in standard form, reached by any two histories and from there in step: if the first is the more certain one, drifts no
faster, measures everything that the second measures at least as well, and perhaps more, it stays the more certain one for ever. -/
theorem C88_history_partial (N : Prim K) (hN : N.Lawful) (p q : EkfParams K) (hp : p.useRoot = false) (hq : q.useRoot = false)
    (np : ∀ k, k < 18 → 0 ≤ p.processNoise.get k) (nq : ∀ k, k < 18 → 0 ≤ q.processNoise.get k)
    (o₁ o₂ : List (Op K)) (w₁ : ∀ op ∈ o₁, op.WF) (w₂ : ∀ op ∈ o₂, op.WF) (c₁ : ∀ op ∈ o₁, op.CovOK) (c₂ : ∀ op ∈ o₂, op.CovOK)
    (e f : Ekf K) (he : run N (init N p) o₁ = .ok e) (hf : run N (init N q) o₂ = .ok f) (ht : f.currentTime = e.currentTime)
    (hg : f.isGravityInitialized = e.isGravityInitialized) (ha : ¬ AugType.Timed e.augType ∧ ¬ AugType.Timed f.augType)
    (hn : ∀ i, e.processNoise.get i i ≤ f.processNoise.get i i) (h : e.Surer f)
    (evs : List (Shared K)) (ok : ∀ ev ∈ evs, ev.OK) (e' f' : Ekf K) (he' : run N e (evs.flatMap Shared.left) = .ok e')
    (hf' : run N f (evs.flatMap Shared.right) = .ok f') : e'.Surer f' :=
  (abreast_run hN evs ⟨covInv_run (covInv_init N p hp np) w₁ c₁ he, covInv_run (covInv_init N q hq nq) w₂ c₂ hf, ht, hg, ha, hn, h⟩ ok
    he' hf').surer

/-- In particular: a filter that has used more measurements, or better ones, since some moment is the more certain one. -/
theorem C88_fork_partial (N : Prim K) (hN : N.Lawful) (p : EkfParams K) (hp : p.useRoot = false)
    (np : ∀ k, k < 18 → 0 ≤ p.processNoise.get k) (ops : List (Op K)) (w : ∀ op ∈ ops, op.WF) (c : ∀ op ∈ ops, op.CovOK)
    (e : Ekf K) (he : run N (init N p) ops = .ok e) (ha : ¬ AugType.Timed e.augType)
    (evs : List (Shared K)) (ok : ∀ ev ∈ evs, ev.OK) (e' f' : Ekf K) (he' : run N e (evs.flatMap Shared.left) = .ok e')
    (hf' : run N e (evs.flatMap Shared.right) = .ok f') : e'.Surer f' :=
  C88_history_partial N hN p p hp hp np np ops ops w w c c e e he he rfl rfl ⟨ha, ha⟩ (fun _ => le_rfl) ⟨rfl, Within.refl _ _⟩ evs ok e' f'
    he' hf'

/-! ## Square-root form -/

/-- The filter of C09 before its measurement: the factor. -/
theorem sample_C88_started : ∃ e, run realPrim (init realPrim C11_params) (C09_ops.take 2) = .ok e ∧
    ∀ i j, i < 21 → j < 21 → e.cov.get i j = if i = j then (if i < 18 then Real.sqrt (1 / 100) else 1) else 0 := by
  obtain ⟨e, he, hc⟩ : ∃ e, run realPrim (init realPrim C11_params) (C09_ops.take 2) = .ok e ∧
      insertInMatrix ⟨3, 3, fun a b => if 0 + a = 0 + b then 1 else 0⟩ (init realPrim C11_params).cov 18 18 = .ok e.cov :=
    ⟨_, rfl, rfl⟩
  obtain ⟨out, h1, h2, h3, h4⟩ := insertInMatrix_spec ⟨3, 3, fun a b => if 0 + a = 0 + b then (1 : ℝ) else 0⟩
    (init realPrim C11_params).cov 18 18 le_rfl le_rfl
  obtain rfl : e.cov = out := Except.ok.inj (hc.symm.trans h1)
  refine ⟨e, he, fun i j hi hj => ?_⟩
  have hb : ∀ i j, (init realPrim C11_params).cov.get i j = Real.sqrt ((if i = j then 1 else 0) * (1 / 100)) :=
    fun _ _ => rfl
  rw [h4 i j hi hj]
  simp only [Nat.zero_add, hb]
  by_cases h18 : i < 18
  · rw [if_neg (by omega)]
    by_cases hj18 : j < 18
    · rw [if_neg (by omega), if_pos h18, if_pos hj18, if_pos h18]
      split <;> simp
    · rw [if_pos (by omega), if_neg (by omega)]
  · rw [if_pos (by omega), if_neg h18]
    by_cases hj18 : j < 18
    · rw [if_neg (by omega), if_neg (by omega)]
    · rw [if_pos (by omega)]
      by_cases hij : i = j
      · rw [if_pos (by omega), if_pos hij]
      · rw [if_neg (by omega), if_neg hij]

/-- In square-root form a filter that has used one measurement more, and is surer for it, is less certain of the fixed antenna position
after both have predicted to some later time. -/
theorem C88_root_violated : ∃ (p : EkfParams ℝ) (ops : List (Op ℝ)) (H R : Mat ℝ) (r : Vec ℝ) (e f e' f' : Ekf ℝ) (t : ℝ),
    (∀ op ∈ ops, op.WF) ∧ run realPrim (init realPrim p) ops = .ok f ∧ f.useRoot = true ∧ Measured realPrim f H r R e ∧
    AreInverse H.rows R.get R.get ∧ e.Surer f ∧ predict realPrim e t = .ok e' ∧ predict realPrim f t = .ok f' ∧
    f'.P 18 18 < e'.P 18 18 := by
  obtain ⟨e, he, hu, hg, ha, ht, hr, hcc, hU, h1, h2⟩ := sample_C09_measured
  obtain ⟨f, hf, fu, fg, fa, ft, fr, _⟩ := sample_C09_started
  obtain ⟨f0, hf0, hm⟩ := sample_C88_started
  obtain rfl := Except.ok.inj (hf0.symm.trans hf)
  have hk : kalmanUpdate realPrim f0 C09_H ⟨1, fun _ => 1⟩ (Mat.identity 1 1) = .ok e := by
    have : C09_ops = C09_ops.take 2 ++ [.kalman C09_H ⟨1, fun _ => 1⟩ (Mat.identity 1 1)] := rfl
    rw [this, run_append, hf] at he
    simp only [ok_bind, run, step, bind_ok_iff] at he
    obtain ⟨_, he, h⟩ := he
    cases h; exact he
  have hR : (Mat.identity 1 1 : Mat ℝ).IsCov := by
    refine ⟨rfl, fun i j _ _ => by simp [Mat.identity, eq_comm], fun x => ?_⟩
    simp [quad, Mat.identity, mul_self_nonneg]
  have hM : Measured realPrim f0 C09_H ⟨1, fun _ => 1⟩ (Mat.identity 1 1) e :=
    ⟨fun h => absurd fu (by rw [h]; simp), hR, fun _ i j _ _ h => if_neg h, hk⟩
  have hI : AreInverse C09_H.rows (Mat.identity 1 1 : Mat ℝ).get (Mat.identity 1 1 : Mat ℝ).get := by
    constructor <;>
    · intro i j hi hj
      have hi : i < 1 := hi
      have hj : j < 1 := hj
      obtain rfl : i = 0 := by omega
      obtain rfl : j = 0 := by omega
      show ∑ k ∈ range 1, _ = _
      simp [Mat.identity]
  have hw : ∀ op ∈ C09_ops, op.WF := by
    intro op ho
    simp only [C09_ops, List.mem_cons, List.not_mem_nil, or_false] at ho
    rcases ho with rfl | rfl | rfl
    · exact GpsState.wf_setIsExtrinsic _ _
    · trivial
    · trivial
  have hw2 : ∀ op ∈ C09_ops.take 2, op.WF := fun op ho => hw op (List.mem_of_mem_take ho)
  have hi := inv_run (inv_init realPrim C11_params) hw he
  have fi := inv_run (inv_init realPrim C11_params) hw2 hf
  have ha' : e.augType ≠ .time ∧ e.augType ≠ .error := by rw [ha]; exact ⟨by simp, by simp⟩
  have fa' : f0.augType ≠ .time ∧ f0.augType ≠ .error := by rw [fa]; exact ⟨by simp, by simp⟩
  -- the leading rows of the factor
  have hlow : ∀ i j, i < 21 → j < i → e.cov.get i j = 0 := fun i j h h' => hU i j (by omega) (by omega) h'
  have hsum : ∀ i j, i ≤ 3 → gram e.cov i j = ∑ k ∈ range (i + 1), e.cov.get k i * e.cov.get k j := by
    intro i j hi
    unfold gram
    rw [hr]
    symm
    refine sum_subset (range_subset_range.2 (by omega)) fun k hk hk' => ?_
    rw [hlow k i (mem_range.1 hk) (by simpa using hk'), zero_mul]
  have d0 := (hsum 0 0 (by omega)).symm.trans (h1 0 0 (by omega) (by omega))
  have d01 := (hsum 0 1 (by omega)).symm.trans (h1 0 1 (by omega) (by omega))
  have d02 := (hsum 0 2 (by omega)).symm.trans (h1 0 2 (by omega) (by omega))
  have d03 := (hsum 0 3 (by omega)).symm.trans (h1 0 3 (by omega) (by omega))
  have d018 := (hsum 0 18 (by omega)).symm.trans (h1 0 18 (by omega) (by omega))
  have d1 := (hsum 1 1 (by omega)).symm.trans (h1 1 1 (by omega) (by omega))
  have d12 := (hsum 1 2 (by omega)).symm.trans (h1 1 2 (by omega) (by omega))
  have d13 := (hsum 1 3 (by omega)).symm.trans (h1 1 3 (by omega) (by omega))
  have d118 := (hsum 1 18 (by omega)).symm.trans (h1 1 18 (by omega) (by omega))
  have d2 := (hsum 2 2 (by omega)).symm.trans (h1 2 2 (by omega) (by omega))
  have d23 := (hsum 2 3 (by omega)).symm.trans (h1 2 3 (by omega) (by omega))
  have d218 := (hsum 2 18 (by omega)).symm.trans (h1 2 18 (by omega) (by omega))
  have d318 := hsum 3 18 (by omega)
  simp [sum_range_succ] at d0 d01 d02 d03 d018
  have n0 : e.cov.get 0 0 ≠ 0 := by intro h; rw [h] at d0; norm_num at d0
  have z01 : e.cov.get 0 1 = 0 := d01.resolve_left n0
  have z02 : e.cov.get 0 2 = 0 := d02.resolve_left n0
  have z03 : e.cov.get 0 3 = 0 := d03.resolve_left n0
  have z018 : e.cov.get 0 18 = 0 := d018.resolve_left n0
  simp [sum_range_succ, z01] at d1 d12 d13 d118
  have n1 : e.cov.get 1 1 ≠ 0 := by intro h; rw [h] at d1; norm_num at d1
  have z12 : e.cov.get 1 2 = 0 := d12.resolve_left n1
  have z13 : e.cov.get 1 3 = 0 := d13.resolve_left n1
  have z118 : e.cov.get 1 18 = 0 := d118.resolve_left n1
  simp [sum_range_succ, z02, z12] at d2 d23 d218
  have n2 : e.cov.get 2 2 ≠ 0 := by intro h; rw [h] at d2; norm_num at d2
  have z23 : e.cov.get 2 3 = 0 := d23.resolve_left n2
  have z218 : e.cov.get 2 18 = 0 := d218.resolve_left n2
  simp [sum_range_succ, z03, z13, z23] at d318
  have n318 : e.cov.get 3 18 ≠ 0 := by intro h; rw [h, mul_zero] at d318; exact h2 d318
  -- a time at which the moved row shows
  set c := e.cov.get 3 18 with hc
  have hc0 : 0 < |c| := abs_pos.2 n318
  have ht0 : 0 ≤ 2 / |c| := by positivity
  have h4 : (2 / |c|) * c * ((2 / |c|) * c) = 4 := by
    have : c * c = |c| * |c| := (abs_mul_abs_self c).symm
    field_simp
    rw [sq_abs]
    ring
  obtain ⟨ce, g1, _, _, _, g5⟩ := predict_root realPrim realPrim_qr realPrim_sqrt e hi hu hg ha' (2 / |c|) (by rw [ht]; exact ht0)
  obtain ⟨cf, k1, _, _, _, k5⟩ := predict_root realPrim realPrim_qr realPrim_sqrt f0 fi fu fg fa' (2 / |c|) (by rw [ft]; exact ht0)
  have hq : e.processNoise = f0.processNoise := by obtain ⟨_, _, rfl⟩ := kalman_rest hk; rfl
  refine ⟨C11_params, C09_ops.take 2, C09_H, Mat.identity 1 1, ⟨1, fun _ => 1⟩, e, f0, _, _, 2 / |c|, hw2, hf, fu, hM, hI,
    C88_measurement realPrim realPrim_lawful f0 e _ _ _ hM _ hI, g1, k1, ?_⟩
  show (if f0.useRoot then gram cf 18 18 else _) < (if e.useRoot then gram ce 18 18 else _)
  rw [hu, fu, if_pos rfl, if_pos rfl, g5 18 18 (by omega) (by omega), k5 18 18 (by omega) (by omega), ht, ft, hr, fr, hq, sub_zero]
  refine add_lt_add_of_lt_of_le ?_ le_rfl
  have hF : gram ⟨21, 21, rootMoved (2 / |c|) f0.cov.get⟩ 18 18 = 1 := by
    unfold gram
    dsimp only
    rw [sum_eq_single 18]
    · simp [rootMoved, hm 18 18 (by omega) (by omega)]
    · intro k hk hne
      have hk := mem_range.1 hk
      have : rootMoved (2 / |c|) f0.cov.get k 18 = 0 := by
        unfold rootMoved
        split
        · rw [if_neg (by omega), hm k 18 hk (by omega), if_neg hne]
          split
          · rw [hm (k + 3) 18 (by omega) (by omega), if_neg (by omega)]; ring
          · ring
        · rw [hm k 18 hk (by omega), if_neg hne]
      rw [this, zero_mul]
    · intro h; exact absurd (mem_range.2 (by omega)) h
  rw [hF]
  have hE : rootMoved (2 / |c|) e.cov.get 0 18 * rootMoved (2 / |c|) e.cov.get 0 18 ≤
      gram ⟨21, 21, rootMoved (2 / |c|) e.cov.get⟩ 18 18 :=
    single_le_sum (f := fun k => rootMoved (2 / |c|) e.cov.get k 18 * rootMoved (2 / |c|) e.cov.get k 18)
      (fun k _ => mul_self_nonneg _) (mem_range.2 (by omega : 0 < 21))
  have h0 : rootMoved (2 / |c|) e.cov.get 0 18 = 2 / |c| * c := by simp [rootMoved, z018, hc]
  rw [h0, h4] at hE
  linarith

/-! ## Examples -/

theorem sample_C88_step {e : Ekf ℝ} (hi : Inv e) (hs : e.stateSize = 18) (hu : e.useRoot = false) (ha : e.augType = .none) (op : Op ℝ)
    (ho : (∃ t, op = .predict t) ∨ ∃ c, op = .kalman C86_H C86_r ((Mat.identity 1 1).smul c)) :
    ∃ e', step realPrim e op = .ok e' ∧ Inv e' ∧ e'.stateSize = 18 ∧ e'.useRoot = false ∧ e'.augType = .none := by
  have hnone : ∀ x : Ekf ℝ, x.augType = .none → augmentTimed realPrim x = .ok x := fun x hx => by
    unfold augmentTimed; rw [if_pos (.inl hx)]; rfl
  obtain ⟨t, rfl⟩ | ⟨c, rfl⟩ := ho
  · by_cases ht : t < e.currentTime
    · exact ⟨e, if_pos ht, hi, hs, hu, ha⟩
    · have hr : e.cov.rows = 18 := by rw [hi.covRows, hs]
      obtain ⟨out, p1, p2, _, p4⟩ := predictCov_spec realPrim e.cov e.processNoise (t - e.currentTime) (by rw [hi.covRows, hi.covCols])
        (by omega) (by rw [hi.noiseRows, hi.covRows]) (by rw [hi.noiseCols, hi.covRows])
      have hd : ∃ e', step realPrim e (.predict t) = .ok e' ∧ e'.stateSize = 18 ∧ e'.useRoot = false ∧ e'.augType = .none := by
        rw [hi.covRows] at p1
        simp only [step, predict, if_neg ht]
        cases hg : e.isGravityInitialized with
        | false => exact ⟨{ e with currentTime := t }, hnone _ ha, hs, hu, ha⟩
        | true =>
          rw [← hu] at p1
          simp only [if_true, p1, ok_bind, pure_res]
          exact ⟨_, hnone _ ha, hs, hu, ha⟩
      obtain ⟨e', h1, h2⟩ := hd
      exact ⟨e', h1, inv_step hi (op := .predict t) trivial h1, h2⟩
  · obtain ⟨e', h⟩ := kalman_defined realPrim e C86_H C86_r ((Mat.identity 1 1).smul c) hi (by rw [hs]; rfl) rfl rfl rfl
    refine ⟨e', h, inv_step hi (op := .kalman C86_H C86_r ((Mat.identity 1 1).smul c)) trivial h, ?_⟩
    obtain ⟨_, _, rfl⟩ := kalman_rest h
    exact ⟨hs, hu, ha⟩

theorem sample_C88_run {ops : List (Op ℝ)} {e : Ekf ℝ} (hi : Inv e) (hs : e.stateSize = 18) (hu : e.useRoot = false) (ha : e.augType = .none)
    (ho : ∀ op ∈ ops, (∃ t, op = .predict t) ∨ ∃ c, op = .kalman C86_H C86_r ((Mat.identity 1 1).smul c)) :
    ∃ e', run realPrim e ops = .ok e' := by
  induction ops generalizing e with
  | nil => exact ⟨e, rfl⟩
  | cons op ops ih =>
    obtain ⟨e1, h1, h2, h3, h4, h5⟩ := sample_C88_step hi hs hu ha op (ho op (List.mem_cons_self ..))
    obtain ⟨e', h⟩ := ih h2 h3 h4 h5 fun x hx => ho x (List.mem_cons_of_mem _ hx)
    exact ⟨e', by simp only [run, h1, ok_bind, h]⟩

/-- Two filters from the same start: the first measures more accurately, once more often, and both predict. -/
noncomputable def C88_events : List (Shared ℝ) :=
  [.predict 1, .both C86_H C86_r C86_r ((Mat.identity 1 1).smul 1) ((Mat.identity 1 1).smul 2),
    .first C86_H C86_r ((Mat.identity 1 1).smul 3), .predict 2]

theorem sample_C88_cov (c : ℝ) (hc : 0 < c) : ((Mat.identity 1 1 : Mat ℝ).smul c).IsCov ∧
    ∃ Ri, AreInverse C86_H.rows ((Mat.identity 1 1 : Mat ℝ).smul c).get Ri := by
  refine ⟨⟨rfl, fun i j _ _ => by simp [Mat.identity, Mat.smul, eq_comm], fun x => ?_⟩, fun _ _ => c⁻¹, ?_⟩
  · have : 0 ≤ x 0 * c * x 0 := by nlinarith [mul_self_nonneg (x 0)]
    simpa [quad, Mat.identity, Mat.smul] using this
  · constructor <;>
    · intro i j hi hj
      have hi : i < 1 := hi
      have hj : j < 1 := hj
      obtain rfl : i = 0 := by omega
      obtain rfl : j = 0 := by omega
      show ∑ k ∈ range 1, _ = _
      simp [Mat.identity, Mat.smul, hc.ne']

example : ∃ e e' f', run realPrim (init realPrim C86_params) [.initializeGravity] = .ok e ∧ ¬ AugType.Timed e.augType ∧
    C86_params.useRoot = false ∧ (∀ k, k < 18 → 0 ≤ C86_params.processNoise.get k) ∧ (∀ ev ∈ C88_events, ev.OK) ∧
    run realPrim e (C88_events.flatMap Shared.left) = .ok e' ∧ run realPrim e (C88_events.flatMap Shared.right) = .ok f' := by
  obtain ⟨e, he, hi, hs, hu, ha⟩ : ∃ e, run realPrim (init realPrim C86_params) [.initializeGravity] = .ok e ∧ Inv e ∧
      e.stateSize = 18 ∧ e.useRoot = false ∧ e.augType = .none :=
    ⟨_, rfl, inv_step (N := realPrim) (inv_init realPrim C86_params) (op := .initializeGravity) trivial rfl, rfl, rfl, rfl⟩
  have hl : ∀ op ∈ C88_events.flatMap Shared.left,
      (∃ t, op = .predict t) ∨ ∃ c, op = .kalman C86_H C86_r ((Mat.identity 1 1).smul c) := by
    intro op ho
    simp only [C88_events, List.flatMap_cons, List.flatMap_nil, Shared.left, List.cons_append, List.nil_append, List.mem_cons,
      List.not_mem_nil, or_false] at ho
    rcases ho with rfl | rfl | rfl | rfl
    · exact .inl ⟨_, rfl⟩
    · exact .inr ⟨_, rfl⟩
    · exact .inr ⟨_, rfl⟩
    · exact .inl ⟨_, rfl⟩
  have hr : ∀ op ∈ C88_events.flatMap Shared.right,
      (∃ t, op = .predict t) ∨ ∃ c, op = .kalman C86_H C86_r ((Mat.identity 1 1).smul c) := by
    intro op ho
    simp only [C88_events, List.flatMap_cons, List.flatMap_nil, Shared.right, List.cons_append, List.nil_append, List.mem_cons,
      List.not_mem_nil, or_false] at ho
    rcases ho with rfl | rfl | rfl
    · exact .inl ⟨_, rfl⟩
    · exact .inr ⟨_, rfl⟩
    · exact .inl ⟨_, rfl⟩
  obtain ⟨e', h1⟩ := sample_C88_run hi hs hu ha hl
  obtain ⟨f', h2⟩ := sample_C88_run hi hs hu ha hr
  refine ⟨e, e', f', he, by rw [ha]; simp [AugType.Timed], rfl, fun k _ => by simp [C86_params, C11_params], ?_, h1, h2⟩
  intro ev hev
  simp only [C88_events, List.mem_cons, List.not_mem_nil, or_false] at hev
  rcases hev with rfl | rfl | rfl | rfl
  · trivial
  · refine ⟨(sample_C88_cov 1 (by norm_num)).1, (sample_C88_cov 2 (by norm_num)).1, (sample_C88_cov 1 (by norm_num)).2,
      (sample_C88_cov 2 (by norm_num)).2, fun x => ?_⟩
    show quad 1 _ x ≤ quad 1 _ x
    have : x 0 * 1 * x 0 ≤ x 0 * 2 * x 0 := by nlinarith [mul_self_nonneg (x 0)]
    simpa [quad, Mat.identity, Mat.smul] using this
  · exact sample_C88_cov 3 (by norm_num)
  · trivial

end EkfCal
