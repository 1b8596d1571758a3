import Verif.Lemmas.Joint
import Verif.Props.C07

/-! # Joint covariances under the filter's calls -/

set_option linter.unusedSectionVars false

namespace EkfCal
open Ekf Finset
variable {K : Type} [Field K] [LinearOrder K]

/-- The covariance represented by a stored matrix. -/
def Pof (root : Bool) (m : Mat K) (i j : Nat) : K := if root then gram m i j else m.get i j

theorem Ekf.P_eq (e : Ekf K) : e.P = Pof e.useRoot e.cov := rfl

theorem sum_insert (f : Nat → K) {m r n : Nat} (hr : r ≤ m) :
    ∑ k ∈ range (m + n), f k = ∑ k ∈ range m, f (shiftUp r n k) + ∑ k ∈ range n, f (r + k) := by
  obtain ⟨t, rfl⟩ := Nat.exists_eq_add_of_le hr
  have e1 : ∑ k ∈ range (r + t + n), f k = ∑ k ∈ range r, f k + (∑ k ∈ range n, f (r + k) + ∑ k ∈ range t, f (r + (n + k))) := by
    rw [show r + t + n = r + (n + t) by omega, sum_range_add, sum_range_add]
  have e2 : ∑ k ∈ range (r + t), f (shiftUp r n k) = ∑ k ∈ range r, f k + ∑ k ∈ range t, f (r + (n + k)) := by
    rw [sum_range_add]
    congr 1
    · refine sum_congr rfl fun k hk => ?_
      rw [shiftUp, if_pos (mem_range.1 hk)]
    · refine sum_congr rfl fun k _ => ?_
      rw [shiftUp, if_neg (by omega)]
      congr 1; omega
  rw [e1, e2]; ring

theorem inserted_P {root b : Bool} {c cov out : Mat K} {m n r : Nat} (hb : b = false → n = 0) (h : Inserted b c cov n r out)
    (hr : cov.rows = m) (hc : cov.cols = m) (hrm : r ≤ m) :
    InsertedP (Pof root cov) m r n (startCov root n c) (Pof root out) := by
  unfold Inserted at h
  cases b with
  | false =>
    have hn := hb rfl
    subst hn
    simp only [Bool.false_eq_true, if_false] at h
    subst h
    intro i j hi hj
    rw [if_neg (by omega), if_neg (by omega)]
    simp
  | true =>
    simp only [if_true] at h
    obtain ⟨blk, h1, h2⟩ := h
    obtain ⟨hb1, rfl⟩ := Mat.block_ok_iff.1 h1
    obtain ⟨o, h3, e1, e2, e3⟩ := insertInMatrix_spec (⟨n, n, fun i j => c.get (0 + i) (0 + j)⟩ : Mat K) cov r r (by omega) (by omega)
    rw [h2] at h3
    cases h3
    have key : ∀ i j, i < m + n → j < m + n → out.get i j =
        if r ≤ i ∧ i < r + n then (if r ≤ j ∧ j < r + n then c.get (i - r) (j - r) else 0)
        else if r ≤ j ∧ j < r + n then 0
        else cov.get (if i < r then i else i - n) (if j < r then j else j - n) := by
      intro i j hi hj
      rw [e3 i j (by rw [hr]; exact hi) (by rw [hc]; exact hj)]
      simp only [Nat.zero_add]
    intro i j hi hj
    cases root with
    | false =>
      show out.get i j = _
      rw [key i j hi hj]
      rfl
    | true =>
      show gram out i j = _
      unfold gram
      have hrows : out.rows = m + n := by rw [e1, hr]
      rw [hrows, sum_insert _ hrm]
      have u1 : ∀ k, k < m → ∀ i, i < m + n → out.get (shiftUp r n k) i =
          if r ≤ i ∧ i < r + n then 0 else cov.get k (if i < r then i else i - n) := by
        intro k hk i hi
        have hs : shiftUp r n k < m + n := by unfold shiftUp; split_ifs <;> omega
        rw [key _ _ hs hi, if_neg (by unfold shiftUp; split_ifs <;> omega)]
        have : (if shiftUp r n k < r then shiftUp r n k else shiftUp r n k - n) = k := by
          unfold shiftUp; split_ifs <;> omega
        rw [this]
      have u2 : ∀ k, k < n → ∀ i, i < m + n → out.get (r + k) i = if r ≤ i ∧ i < r + n then c.get k (i - r) else 0 := by
        intro k hk i hi
        rw [key _ _ (by omega) hi, if_pos (by omega)]
        congr 1
        rw [show r + k - r = k by omega]
      have s1 : ∑ k ∈ range m, out.get (shiftUp r n k) i * out.get (shiftUp r n k) j =
          if r ≤ i ∧ i < r + n ∨ r ≤ j ∧ j < r + n then 0 else
            gram cov (if i < r then i else i - n) (if j < r then j else j - n) := by
        by_cases h1 : r ≤ i ∧ i < r + n
        · rw [if_pos (.inl h1)]
          refine sum_eq_zero fun k hk => ?_
          rw [u1 k (mem_range.1 hk) i hi, if_pos h1, zero_mul]
        · by_cases h2 : r ≤ j ∧ j < r + n
          · rw [if_pos (.inr h2)]
            refine sum_eq_zero fun k hk => ?_
            rw [u1 k (mem_range.1 hk) j hj, if_pos h2, mul_zero]
          · rw [if_neg (by rintro (h | h); exacts [h1 h, h2 h])]
            unfold gram
            rw [hr]
            refine sum_congr rfl fun k hk => ?_
            rw [u1 k (mem_range.1 hk) i hi, u1 k (mem_range.1 hk) j hj, if_neg h1, if_neg h2]
      have s2 : ∑ k ∈ range n, out.get (r + k) i * out.get (r + k) j =
          if r ≤ i ∧ i < r + n then (if r ≤ j ∧ j < r + n then startCov true n c (i - r) (j - r) else 0) else 0 := by
        by_cases h1 : r ≤ i ∧ i < r + n
        · rw [if_pos h1]
          by_cases h2 : r ≤ j ∧ j < r + n
          · rw [if_pos h2]
            show _ = gram _ _ _
            unfold gram
            refine sum_congr rfl fun k hk => ?_
            rw [u2 k (mem_range.1 hk) i hi, u2 k (mem_range.1 hk) j hj, if_pos h1, if_pos h2]
          · rw [if_neg h2]
            refine sum_eq_zero fun k hk => ?_
            rw [u2 k (mem_range.1 hk) j hj, if_neg h2, mul_zero]
        · rw [if_neg h1]
          refine sum_eq_zero fun k hk => ?_
          rw [u2 k (mem_range.1 hk) i hi, if_neg h1, zero_mul]
      rw [s1, s2]
      by_cases h1 : r ≤ i ∧ i < r + n <;> by_cases h2 : r ≤ j ∧ j < r + n <;> simp [h1, h2, Pof]

/-! ## Registration -/

theorem nameSize_mapNames {α : Type} {f : Nat → α → List Entry} {dim : α → Nat}
    (h : ∀ k a, nameSize ((f k a).map Entry.name) = dim a) (m : UMap α) : nameSize (mapNames f m) = mapDim dim m := by
  induction m with
  | nil => rfl
  | cons x m ih => obtain ⟨k, a⟩ := x; rw [mapNames_cons, nameSize_append, h, ih, mapDim_cons]

theorem imu_nameSize (k : Nat) (a : ImuState K) : nameSize ((a.entries k).map Entry.name) = a.dim := by
  unfold ImuState.entries ImuState.dim; split <;> split <;> rfl
theorem gps_nameSize (k : Nat) (a : GpsState K) : nameSize ((a.entries k).map Entry.name) = a.dim := by
  unfold GpsState.entries GpsState.dim; split <;> rfl
theorem cam_nameSize (k : Nat) (a : CamState K) : nameSize ((a.entries k).map Entry.name) = a.dim := by
  unfold CamState.entries CamState.dim; split <;> rfl
theorem fid_nameSize (k : Nat) (a : FidState K) : nameSize ((a.entries k).map Entry.name) = a.dim := by
  unfold FidState.entries FidState.dim; split <;> rfl

theorem names_nil_of_size {l : List Entry} (h : nameSize (l.map Entry.name) = 0) (hp : ∀ x ∈ l, 0 < x.2.2) : l.map Entry.name = [] := by
  cases l with
  | nil => rfl
  | cons x l =>
    have := hp x (by simp)
    simp only [nameSize, List.map_cons, List.sum_cons, Entry.name] at h
    omega

/-- A new key whose successors have no estimated components comes last, by name. -/
theorem mapNames_insert_end {α : Type} {f : Nat → α → List Entry} {dim : α → Nat}
    (hf : ∀ k a, nameSize ((f k a).map Entry.name) = dim a) (hp : ∀ k a, ∀ x ∈ f k a, 0 < x.2.2) {m : UMap α} (hs : UMap.Sorted m)
    {k : Nat} {v : α} (hk : UMap.find? m k = none) (h : dim v = 0 ∨ ∀ x ∈ m, k < x.1 → dim x.2 = 0) :
    mapNames f (UMap.insert m k v) = mapNames f m ++ (f k v).map Entry.name := by
  obtain ⟨l1, l2, e1, e2, e3, e4⟩ := UMap.insert_split hs k
  rcases e4 with ⟨_, e4⟩ | ⟨w, e4, _⟩
  · rw [e1 v, mapNames_append, mapNames_cons]
    conv_rhs => rw [e4, mapNames_append]
    rcases h with h | h
    · have : (f k v).map Entry.name = [] := names_nil_of_size (by rw [hf, h]) (hp k v)
      rw [this]; simp
    · have : mapNames f l2 = [] := by
        rw [e4] at h
        clear e1 e4 hk
        induction l2 with
        | nil => rfl
        | cons x l2 ih =>
          obtain ⟨k', a⟩ := x
          rw [mapNames_cons, ih (fun y hy => e3 y (List.mem_cons_of_mem _ hy))
            (fun y hy hlt => h y (by simp at hy ⊢; tauto) hlt), List.append_nil]
          have hz := h (k', a) (by simp) (e3 (k', a) (by simp))
          exact names_nil_of_size (by rw [hf]; exact hz) (hp k' a)
      rw [this]; simp
  · rw [hk] at e4; cases e4

theorem Ekf.Inv.laid {e : Ekf K} (hi : Inv e) : Laid e.state e.stateSize := ⟨hi.sorted, hi.tiles⟩

/-- Registration, generically. -/
theorem register_core {e e' : Ekf K} {A M B : List (Label × Nat)} {b : Bool} {c out : Mat K} {n : Nat}
    {parts : List (Label × Nat × Nat)} (hi : Inv e) (hi' : Inv e') (hu : e'.useRoot = e.useRoot) (hcov : e'.cov = out)
    (hb : b = false → n = 0)
    (hn : e.state.names = A ++ B) (hn' : e'.state.names = A ++ M ++ B) (hsz : e'.stateSize = e.stateSize + n) (hM : nameSize M = n)
    (hout : Inserted b c e.cov n (nameSize A) out)
    (hparts : ∀ a o p, (a, o, p) ∈ parts → ∃ M1 M2, M = M1 ++ (a, p) :: M2 ∧ nameSize M1 = o) :
    e.Registers e' parts (startCov e.useRoot n c) := by
  subst hM
  have l := hi.laid
  have l' := hi'.laid
  rw [hsz] at l'
  have hle : nameSize A ≤ e.stateSize := by
    have := l.entries.end_eq
    have hs : nameSize e.state.names = (e.state.entries.map Prod.snd |>.map Prod.snd).sum := by
      unfold State.names nameSize
      simp [Function.comp_def, Entry.name]
    rw [hn, nameSize_append] at hs
    omega
  have hP : InsertedP e.P e.stateSize (nameSize A) (nameSize M) (startCov e.useRoot (nameSize M) c) e'.P := by
    rw [Ekf.P_eq, Ekf.P_eq, hu, hcov]
    exact inserted_P hb hout hi.covRows hi.covCols hle
  refine ⟨insert_keeps l l' hn hn' hP, ?_, ?_⟩
  · intro a o p b o' q ha hb k l hk hl
    obtain ⟨M1, M2, h1, rfl⟩ := hparts a o p ha
    obtain ⟨M3, M4, h3, rfl⟩ := hparts b o' q hb
    exact insert_new (s := e.state) l' hn' hP h1 h3 hk hl
  · intro a o p b k l v ha hb hv
    obtain ⟨M1, M2, h1, _⟩ := hparts a o p ha
    exact insert_zero ‹Laid e.state _› l' hn hn' hP h1 hb hv

theorem window_nameSize (k : Nat) (w : List (AugState K)) :
    nameSize ((augEntriesFrom k w 0).map Entry.name) = 6 * w.length := by
  rw [augEntriesFrom_name]
  simp [nameSize, Function.comp_def, Nat.mul_comm]

theorem State.nameSize_names (s : State K) : nameSize s.names = s.dim := by
  rw [State.names_eq]
  simp only [nameSize_append]
  rw [nameSize_mapNames imu_nameSize, nameSize_mapNames gps_nameSize, nameSize_mapNames cam_nameSize,
    nameSize_mapNames fid_nameSize, nameSize_mapNames window_nameSize]
  rfl

theorem register_via {N : Prim K} {e e1 e' : Ekf K} {A M B : List (Label × Nat)} {b : Bool} {c : Mat K} {n : Nat}
    {parts : List (Label × Nat × Nat)} (h : refreshIndices N e1 = .ok e') (hi : Inv e) (hi' : Inv e') (hu : e1.useRoot = e.useRoot)
    (hb : b = false → n = 0)
    (hn : e.state.names = A ++ B) (hn' : e1.state.names = A ++ M ++ B) (hsz : e1.stateSize = e.stateSize + n) (hM : nameSize M = n)
    (hout : Inserted b c e.cov n (nameSize A) e1.cov)
    (hparts : ∀ a o p, (a, o, p) ∈ parts → ∃ M1 M2, M = M1 ++ (a, p) :: M2 ∧ nameSize M1 = o) :
    e.Registers e' parts (startCov e.useRoot n c) := by
  have hd : e1.state.dim = e1.stateSize := by
    rw [← State.nameSize_names, hn', hsz, hi.size, ← State.nameSize_names, hn]
    simp only [nameSize_append]; omega
  obtain ⟨_, h1, _, h3⟩ := refreshIndices_ok hd.le h
  refine register_core (M := M) hi hi' ?_ rfl hb hn ?_ ?_ hM ?_ hparts
  · rw [h3]; exact hu
  · rw [h1, State.names_reindex]; exact hn'
  · rw [h3]; exact hsz
  · rw [h3]; exact hout

theorem imu_pos (k : Nat) (a : ImuState K) : ∀ x ∈ a.entries k, 0 < x.2.2 := by
  unfold ImuState.entries; intro x hx; split at hx <;> split at hx <;> simp at hx <;> rcases hx with rfl | rfl <;> exact Nat.succ_pos _
theorem gps_pos (k : Nat) (a : GpsState K) : ∀ x ∈ a.entries k, 0 < x.2.2 := by
  unfold GpsState.entries; intro x hx; split at hx <;> simp at hx; subst hx; exact Nat.succ_pos _
theorem cam_pos (k : Nat) (a : CamState K) : ∀ x ∈ a.entries k, 0 < x.2.2 := by
  unfold CamState.entries; intro x hx; split at hx <;> simp at hx; subst hx; exact Nat.succ_pos _
theorem fid_pos (k : Nat) (a : FidState K) : ∀ x ∈ a.entries k, 0 < x.2.2 := by
  unfold FidState.entries; intro x hx; split at hx <;> simp at hx; subst hx; exact Nat.succ_pos _

theorem imu_parts (id : Nat) (s : ImuState K) (a : Label) (o p : Nat) (h : (a, o, p) ∈ s.parts id) :
    ∃ M1 M2, (s.entries id).map Entry.name = M1 ++ (a, p) :: M2 ∧ nameSize M1 = o := by
  unfold ImuState.parts at h
  unfold ImuState.entries
  cases he : s.isExtrinsic <;> cases hn : s.isIntrinsic <;> simp [he, hn] at h
  · obtain ⟨rfl, rfl, rfl⟩ := h; exact ⟨[], [], by simp [Entry.name], rfl⟩
  · obtain ⟨rfl, rfl, rfl⟩ := h; exact ⟨[], [], by simp [Entry.name], rfl⟩
  · rcases h with ⟨rfl, rfl, rfl⟩ | ⟨rfl, rfl, rfl⟩
    · exact ⟨[], [(.imuInt id, 6)], by simp [Entry.name], rfl⟩
    · exact ⟨[(.imuExt id, 6)], [], by simp [Entry.name], rfl⟩

/-! ## Cloning -/

/-- Names of the clones around a window. -/
theorem window_split {m : UMap (List (AugState K))} (hs : UMap.Sorted m) (key : Nat) :
    ∃ L1 L2 : List (Label × Nat), (∀ y ∈ L1, ∃ k p, k ≠ key ∧ y = (.clone k p, 6)) ∧ (∀ y ∈ L2, ∃ k p, k ≠ key ∧ y = (.clone k p, 6)) ∧
      mapNames (fun k w => augEntriesFrom k w 0) m = L1 ++ windowNames key (UMap.getD m key []) ++ L2 ∧
      ∀ w, mapNames (fun k w => augEntriesFrom k w 0) (UMap.insert m key w) = L1 ++ windowNames key w ++ L2 := by
  obtain ⟨l1, l2, e1, e2, e3, e4⟩ := UMap.insert_split hs key
  have other : ∀ l : UMap (List (AugState K)), (∀ x ∈ l, x.1 ≠ key) →
      ∀ y ∈ mapNames (fun k w => augEntriesFrom k w 0) l, ∃ k p, k ≠ key ∧ y = (.clone k p, 6) := by
    intro l hl y hy
    obtain ⟨z, hz, rfl⟩ := List.mem_map.1 hy
    obtain ⟨k, a, h1, h2⟩ := mem_mapEntries.1 hz
    obtain ⟨q, b, _, rfl⟩ := mem_augEntriesFrom.1 h2
    exact ⟨k, _, hl _ h1, rfl⟩
  refine ⟨mapNames (fun k w => augEntriesFrom k w 0) l1, mapNames (fun k w => augEntriesFrom k w 0) l2,
    other l1 (fun x hx => (e2 x hx).ne), other l2 (fun x hx => (e3 x hx).ne'), ?_, fun w => ?_⟩
  · rcases e4 with ⟨h1, h2⟩ | ⟨w, h1, h2⟩
    · unfold UMap.getD
      rw [h1]
      conv_lhs => rw [h2]
      rw [mapNames_append]
      simp [windowNames, augEntriesFrom]
    · unfold UMap.getD
      rw [h1]
      conv_lhs => rw [h2]
      rw [mapNames_append, mapNames_cons]
      simp [windowNames]
  · rw [e1, mapNames_append, mapNames_cons]
    simp [windowNames]

/-- Names of a state before its clones. -/
def State.front (s : State K) : List (Label × Nat) := [(.body, 18)] ++ mapNames ImuState.entries s.imus
    ++ mapNames GpsState.entries s.gpss ++ mapNames CamState.entries s.cams ++ mapNames FidState.entries s.fids

theorem State.front_size (s : State K) : 18 ≤ nameSize s.front := by
  unfold State.front
  simp only [nameSize_append]
  have : nameSize [(Label.body, 18)] = 18 := rfl
  omega

theorem State.front_label (s : State K) : ∀ y ∈ s.front, ∀ k p, y.1 ≠ .clone k p := by
  intro y hy k p
  unfold State.front at hy
  simp only [List.mem_append, List.mem_singleton] at hy
  rcases hy with (((hy | hy) | hy) | hy) | hy
  · subst hy; simp
  all_goals
    obtain ⟨z, hz, rfl⟩ := List.mem_map.1 hy
    obtain ⟨j, a, _, h2⟩ := mem_mapEntries.1 hz
  · unfold ImuState.entries at h2
    rcases List.mem_append.1 h2 with h2 | h2 <;> split at h2 <;> simp at h2 <;> subst h2 <;> simp [Entry.name]
  · unfold GpsState.entries at h2
    split at h2 <;> simp at h2; subst h2; simp [Entry.name]
  · unfold CamState.entries at h2
    split at h2 <;> simp at h2; subst h2; simp [Entry.name]
  · unfold FidState.entries at h2
    split at h2 <;> simp at h2; subst h2; simp [Entry.name]

theorem State.names_front (s : State K) : s.names = s.front ++ mapNames (fun k w => augEntriesFrom k w 0) s.augs :=
  State.names_eq s

theorem windowNames_snoc (key : Nat) (w : List (AugState K)) (a : AugState K) :
    windowNames key (w ++ [a]) = windowNames key w ++ [(.clone key w.length, 6)] := by
  simp [windowNames_eq, List.range_succ]

/-- The stored matrix after cloning at `idx` stands for the covariance with the pose rows repeated. -/
theorem clone_P {root : Bool} {cov out : Mat K} {idx m : Nat} (hr : cov.rows = m) (hc : cov.cols = m) (h12 : 12 ≤ idx) (hi : idx ≤ m)
    (hup : root = true → cov.Upper) (h : augmentCovariance root cov idx = .ok out) :
    ∀ i j, i < m + 6 → j < m + 6 → Pof root out i j = Pof root cov (cloneSource idx i) (cloneSource idx j) := by
  intro i j h1 h2
  cases root with
  | false =>
    obtain ⟨o, ho, _, _, hg⟩ := augmentCovariance_spec cov idx (by omega) h12 (by omega)
    rw [h] at ho; cases ho
    exact hg i j (by omega) (by omega)
  | true =>
    obtain ⟨o, ho, hrr, _, hg⟩ := augmentCovariance_root_spec cov idx (by omega) h12 (by omega) (hup rfl)
    rw [h] at ho; cases ho
    show gram out i j = gram cov _ _
    unfold gram
    rw [hrr, sum_range_add]
    have hz : ∑ k ∈ range 6, out.get (cov.rows + k) i * out.get (cov.rows + k) j = 0 := by
      refine sum_eq_zero fun k hk => ?_
      have := mem_range.1 hk
      rw [hg (cov.rows + k) i (by omega) (by omega), if_neg (by omega), zero_mul]
    rw [hz, add_zero]
    refine sum_congr rfl fun k hk => ?_
    have := mem_range.1 hk
    rw [hg k i (by omega) (by omega), hg k j (by omega) (by omega), if_pos this, if_pos this]

/-- Appending a clone of the pose to a window, generically: `s`/`cov` before, `e0` with the clone appended, `e1` after the
indices are refreshed and before the covariance is extended. -/
theorem clone_core {N : Prim K} {s : State K} {m key n : Nat} {A B : List (Label × Nat)} {cov : Mat K} {e0 e1 e' : Ekf K}
    (h : refreshIndices N e0 = .ok e1) (h2 : augmentAtBack e1 key = .ok e') (l : Laid s m) (hdim : s.dim = m)
    (hbody : s.body.index = 0) (hn : s.names = A ++ B) (hn0 : e0.state.names = A ++ [(.clone key n, 6)] ++ B)
    (hsort0 : e0.state.MapsSorted) (h18 : 18 ≤ nameSize A) (hnext : ∀ x, (Label.clone key (n + 1), x) ∉ A ++ B)
    (hsz : e0.stateSize = m + 6) (hcov : e0.cov = cov)
    (hr : cov.rows = m) (hc : cov.cols = m) (hup : e0.useRoot = true → cov.Upper) :
    KeepsJoint s (Pof e0.useRoot cov) e'.state e'.P Eq ∧
    ∀ k l v, k < 6 →
      (∀ b, s.joint (Pof e0.useRoot cov) .body b (poseRow k) l = some v → e'.joint (.clone key n) b k l = some v) ∧
      (∀ b, s.joint (Pof e0.useRoot cov) b .body l (poseRow k) = some v → e'.joint b (.clone key n) l k = some v) ∧
      (l < 6 → s.joint (Pof e0.useRoot cov) .body .body (poseRow k) (poseRow l) = some v →
        e'.joint (.clone key n) (.clone key n) k l = some v) := by
  have hd0 : e0.state.dim = e0.stateSize := by
    rw [← State.nameSize_names, hn0, hsz, ← hdim, ← State.nameSize_names, hn]
    simp only [nameSize_append]
    have : nameSize [(Label.clone key n, 6)] = 6 := rfl
    omega
  obtain ⟨_, h1, _, h3⟩ := refreshIndices_ok hd0.le h
  have l1 : Laid e1.state (m + 6) := by
    rw [h1]
    refine ⟨State.reindex_sorted hsort0, ?_⟩
    have := State.reindex_tiles e0.state
    rw [hd0, hsz] at this
    exact this
  have hn1' : e1.state.names = A ++ [(.clone key n, 6)] ++ B := by
    rw [h1, State.names_reindex]; exact hn0
  obtain ⟨b, out, hb, hout, rfl⟩ := augmentAtBack_form h2
  have hcl := l1.at (A := A) (B := B) (a := .clone key n) (m := 6) (by rw [hn1']; simp)
  have hlen : (UMap.getD e1.state.augs key []).length = n + 1 := by
    by_contra hne
    have hsome : ∃ c, (UMap.getD e1.state.augs key [])[n]? = some c := by
      simp only [State.comp, Option.map_eq_some_iff] at hcl
      obtain ⟨c, hc, _⟩ := hcl
      exact ⟨c, hc⟩
    obtain ⟨c, hc⟩ := hsome
    have hlt := (List.getElem?_eq_some_iff.1 hc).1
    -- a further clone would be a further name
    have hmore : e1.state.comp (.clone key (n + 1)) ≠ none := by
      have : n + 1 < (UMap.getD e1.state.augs key []).length := by omega
      simp [State.comp, this]
    obtain ⟨x, hx⟩ := Option.ne_none_iff_exists'.1 hmore
    obtain ⟨A', B', hAB, _⟩ := l1.split hx
    have hmem : (Label.clone key (n + 1), x.2) ∈ e1.state.names := by rw [hAB]; simp
    rw [hn1'] at hmem
    refine hnext x.2 ?_
    simp only [List.mem_append, List.mem_singleton] at hmem ⊢
    rcases hmem with (hm | hm) | hm
    · exact .inl hm
    · simp only [Prod.mk.injEq, Label.clone.injEq] at hm
      omega
    · exact .inr hm
  have hidx : b.index = nameSize A := by
    rw [List.getLast?_eq_getElem?, hlen] at hb
    simp only [State.comp] at hcl
    rw [show n + 1 - 1 = n by omega] at hb
    rw [hb] at hcl
    simp only [Option.map_some, Option.some.injEq, Prod.mk.injEq] at hcl
    exact hcl.1
  have hle : nameSize A ≤ m := by
    have := nameSize_append A B
    rw [← hdim, ← State.nameSize_names, hn]; omega
  have hu1 : e1.useRoot = e0.useRoot := by rw [h3]
  have hc1 : e1.cov = cov := by rw [h3]; exact hcov
  rw [hu1, hc1, hidx] at hout
  have hP : ∀ i j, i < m + 6 → j < m + 6 → Ekf.P { e1 with cov := out } i j =
      Pof e0.useRoot cov (cloneSource (nameSize A) i) (cloneSource (nameSize A) j) := by
    rw [Ekf.P_eq]
    dsimp only
    rw [hu1]
    exact clone_P hr hc (by omega) hle hup hout
  have hb0 : s.comp .body = some (0, 18) := by simp [State.comp, hbody]
  exact ⟨clone_keeps l l1 hn hn1' hP, fun k l v hk => clone_new ‹Laid s m› l1 hb0 hn hn1' hP k l v hk⟩

/-! ## Dropping a clone (standard mode) -/

/-- Where the clone now at `p` was before the clone at `i` was dropped. -/
def skip (i p : Nat) : Nat := if p < i then p else p + 1

theorem reloc_inj {key : Nat} {σ : Nat → Nat} (hσ : ∀ p q, σ p = σ q → p = q) (a b : Label) (h : reloc key σ a = reloc key σ b) : a = b := by
  cases a <;> cases b <;> simp only [reloc] at h <;> try exact h
  all_goals (try split at h) <;> (try split at h) <;> simp only [Label.clone.injEq, reduceCtorEq] at h ⊢
  · exact ⟨h.1, hσ _ _ h.2⟩
  · omega
  · omega
  · exact h

theorem skip_inj (i p q : Nat) (h : skip i p = skip i q) : p = q := by
  unfold skip at h; split_ifs at h <;> omega

theorem skip_ne (i p : Nat) : skip i p ≠ i := by unfold skip; split_ifs <;> omega

theorem skip_strictMono (i : Nat) : StrictMono (skip i) := by
  intro p q h; unfold skip; split_ifs <;> omega

/-- State and covariance after dropping the clone at `i` of a window. -/
theorem drop_core {s s1 : State K} {m key i : Nat} {a : AugState K} {cov out : Mat K} (l : Laid s m) (l1 : Laid s1 (m - 6))
    (ha : (UMap.getD s.augs key [])[i]? = some a)
    (hn1 : s1.names = ({ s with augs := UMap.insert s.augs key ((UMap.getD s.augs key []).eraseIdx i) } : State K).names)
    (h : removeFromMatrix cov a.index a.index 6 = .ok out) (hr : cov.rows = m) (hc : cov.cols = m) :
    KeepsJoint s cov.get s1 out.get fun b b' => b = reloc key (skip i) b' := by
  obtain ⟨L1, L2, o1, o2, e1, e2⟩ := window_split l.sorted.augs key
  have hlt := (List.getElem?_eq_some_iff.1 ha).1
  set w := UMap.getD s.augs key [] with hw
  let old := reloc key (skip i)
  let A := s.front ++ L1 ++ (List.range i).map fun q => (Label.clone key q, 6)
  let B := ((List.range' (i + 1) (w.length - (i + 1))).map fun q => (Label.clone key q, 6)) ++ L2
  let B' := ((List.range' i (w.length - (i + 1))).map fun q => (Label.clone key q, 6)) ++ L2
  have r1 : List.range w.length = List.range i ++ i :: List.range' (i + 1) (w.length - (i + 1)) := by
    rw [List.range_eq_range', List.range_eq_range', ← List.range'_succ]
    have := List.range'_append (s := 0) (m := i) (n := w.length - (i + 1) + 1) (step := 1)
    simp only [Nat.zero_add, Nat.one_mul] at this
    rw [this]; congr 1; omega
  have r2 : List.range (w.eraseIdx i).length = List.range i ++ List.range' i (w.length - (i + 1)) := by
    rw [List.length_eraseIdx_of_lt hlt, List.range_eq_range', List.range_eq_range']
    have := List.range'_append (s := 0) (m := i) (n := w.length - (i + 1)) (step := 1)
    simp only [Nat.zero_add, Nat.one_mul] at this
    rw [this]; congr 1; omega
  have hn : s.names = A ++ [(.clone key i, 6)] ++ B := by
    rw [State.names_front, e1, windowNames_eq, r1]
    simp [A, B]
  have hn' : s1.names = A ++ B' := by
    rw [hn1, State.names_front, e2, windowNames_eq, r2]
    have : ({ s with augs := UMap.insert s.augs key (w.eraseIdx i) } : State K).front = s.front := rfl
    rw [this]
    simp [A, B']
  have h6 : nameSize [(Label.clone key i, 6)] = 6 := rfl
  have hcl := l.at (A := A) (B := B) (a := .clone key i) (m := 6) (by rw [hn]; simp)
  have hidx : a.index = nameSize A := by
    simp only [State.comp] at hcl
    rw [← hw, ha] at hcl
    simp only [Option.map_some, Option.some.injEq, Prod.mk.injEq] at hcl
    exact hcl.1
  have hb := l.bound hcl
  dsimp only at hb
  obtain ⟨o, h', _, _, hg⟩ := removeFromMatrix_spec cov a.index a.index 6 (by omega) (by omega)
  rw [h] at h'; cases h'
  refine remove_keeps (M := [(.clone key i, 6)]) (B' := B') (old := old) l l1 hn hn' ?_ ?_ ?_ (reloc_inj (skip_inj i)) ?_
  · intro y hy b hb
    simp only [A, List.mem_append] at hy
    rcases hy with (hy | hy) | hy
    · have hf := State.front_label s y hy
      cases b <;> simp only [old, reloc] at hb <;> try exact hb
      rename_i k p
      split at hb
      · exact absurd hb.symm (hf _ _)
      · exact absurd hb.symm (hf _ _)
    · obtain ⟨k, p, hk, rfl⟩ := o1 y hy
      cases b <;> simp only [old, reloc] at hb <;> try exact hb
      rename_i k' p'
      split at hb
      · simp only [Label.clone.injEq] at hb; omega
      · exact hb
    · obtain ⟨q, hq, rfl⟩ := List.mem_map.1 hy
      have hq := List.mem_range.1 hq
      cases b <;> simp only [old, reloc] at hb <;> try exact hb
      rename_i k' p'
      split at hb
      · simp only [Label.clone.injEq] at hb ⊢
        refine ⟨hb.1, ?_⟩
        have := hb.2
        unfold skip at this
        split_ifs at this <;> omega
      · exact hb
  · intro y hy b hb
    simp only [List.mem_singleton] at hy
    subst hy
    cases b <;> simp only [old, reloc, reduceCtorEq] at hb
    rename_i k' p'
    split at hb
    · simp only [Label.clone.injEq] at hb
      exact skip_ne i p' hb.2
    · simp only [Label.clone.injEq] at hb
      omega
  · simp only [B, B', renamed, List.map_append]
    congr 1
    · rw [List.map_map]
      have : List.range' (i + 1) (w.length - (i + 1)) = (List.range' i (w.length - (i + 1))).map (· + 1) := by
        rw [show (fun x : Nat => x + 1) = (1 + ·) from funext fun x => Nat.add_comm x 1, List.map_add_range', Nat.add_comm 1 i]
      rw [this, List.map_map]
      refine List.map_congr_left fun q hq => ?_
      have := (List.mem_range'_1.1 hq).1
      simp only [Function.comp, old, reloc, if_true, skip]
      rw [if_neg (by omega)]
    · symm
      conv_rhs => rw [← List.map_id L2]
      refine List.map_congr_left fun y hy => ?_
      obtain ⟨k, p, hk, rfl⟩ := o2 y hy
      simp [old, reloc, hk]
  · intro i' j' hi' hj'
    rw [h6, ← hidx]
    exact hg i' j' (by omega) (by omega)

end EkfCal
