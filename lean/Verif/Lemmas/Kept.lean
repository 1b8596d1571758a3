import Verif.Spec.Kept
import Verif.Lemmas.Comp
import Verif.Lemmas.Window

/-! # What calls keep of the sensors -/

set_option linter.unusedSectionVars false

namespace EkfCal
variable {K : Type}

namespace UMap.Into
variable {V : Type} {R : V → V → Prop}

theorem refl (h : ∀ s, R s s) (m : UMap V) : UMap.Into R m m := fun _ s hs => ⟨s, hs, h s⟩

theorem trans (h : ∀ a b c, R a b → R b c → R a c) {l m n : UMap V} (h1 : UMap.Into R l m) (h2 : UMap.Into R m n) : UMap.Into R l n := by
  intro k s hs
  obtain ⟨t, ht, r1⟩ := h1 k s hs
  obtain ⟨u, hu, r2⟩ := h2 k t ht
  exact ⟨u, hu, h _ _ _ r1 r2⟩

theorem mono {R' : V → V → Prop} (h : ∀ a b, R a b → R' a b) {m n : UMap V} (h1 : UMap.Into R m n) : UMap.Into R' m n := by
  intro k s hs
  obtain ⟨t, ht, r⟩ := h1 k s hs
  exact ⟨t, ht, h _ _ r⟩

theorem insert (h : ∀ s, R s s) {m : UMap V} {k : Nat} {v : V} (hk : m.find? k = none) : UMap.Into R m (m.insert k v) := by
  intro k' s hs
  refine ⟨s, ?_, h s⟩
  rw [UMap.find?_insert_ne _ _ (fun e => by rw [e, hk] at hs; cases hs)]
  exact hs

theorem touch (h : ∀ s, R s s) (m : UMap V) (k : Nat) (v : V) : UMap.Into R m (m.touch k v) := by
  unfold UMap.touch
  split
  · exact refl h m
  · rename_i hk
    exact insert h (by simpa using hk)

theorem accum {g : V → Nat → V} {dim : V → Nat} (h : ∀ s i, R s (g s i)) (m : UMap V) (i : Nat) : UMap.Into R m (accumIdx g dim m i) := by
  intro k s hs
  obtain ⟨j, hj⟩ := find?_accumIdx g dim m i k
  rw [hs] at hj
  exact ⟨_, hj, h s j⟩

theorem loop {f : V → Nat → Res (V × Nat)} (hf : ∀ a i r, f a i = .ok r → R a r.1) :
    ∀ {m : UMap V} {i : Nat} {r : UMap V × Nat}, loopMap f m i = .ok r → UMap.Into R m r.1
  | [], _, _, _ => fun k s hs => by cases hs
  | (k0, a) :: m, i, r, h => by
    simp only [loopMap, loopIdx, bind_ok_iff, pure_res, Except.ok.injEq] at h
    obtain ⟨_, ⟨⟨a', j⟩, h1, rfl⟩, ⟨m', j'⟩, h2, rfl⟩ := h
    intro k s hs
    by_cases hk : k0 = k
    · simp only [UMap.find?, hk, if_true, Option.some.injEq] at hs
      refine ⟨a', by simp [UMap.find?, hk], ?_⟩
      rw [← hs]; exact hf _ _ _ h1
    · simp only [UMap.find?, hk, if_false] at hs
      obtain ⟨t, ht, r⟩ := loop hf h2 k s hs
      exact ⟨t, by simp [UMap.find?, hk, ht], r⟩

end UMap.Into

theorem ImuState.Still.refl (s : ImuState K) : s.Still s := ⟨⟨⟨rfl, rfl⟩, ⟨rfl, rfl, rfl, rfl⟩, fun _ => ⟨rfl, rfl⟩, fun _ => ⟨rfl, rfl⟩⟩, rfl, rfl, rfl, rfl⟩
theorem GpsState.Still.refl (s : GpsState K) : s.Still s := ⟨⟨rfl, rfl, fun _ => rfl⟩, rfl⟩
theorem CamState.Still.refl (s : CamState K) : s.Still s := ⟨⟨rfl, ⟨rfl, rfl⟩, rfl, fun _ => ⟨rfl, rfl⟩⟩, rfl, rfl⟩
theorem FidState.Still.refl (s : FidState K) : s.Still s := ⟨⟨rfl, ⟨rfl, rfl⟩, rfl, fun _ => ⟨rfl, rfl⟩⟩, rfl, rfl⟩

theorem ImuState.Keeps.trans (a b c : ImuState K) (h : a.Keeps b) (g : b.Keeps c) : a.Keeps c :=
  ⟨⟨g.1.1.trans h.1.1, g.1.2.trans h.1.2⟩,
    ⟨g.2.1.trans h.2.1, g.2.2.1.trans h.2.2.1, g.2.2.2.1.trans h.2.2.2.1, g.2.2.2.2.trans h.2.2.2.2⟩,
    fun x => ⟨(g.3 (h.1.1.trans x)).1.trans (h.3 x).1, (g.3 (h.1.1.trans x)).2.trans (h.3 x).2⟩,
    fun x => ⟨(g.4 (h.1.2.trans x)).1.trans (h.4 x).1, (g.4 (h.1.2.trans x)).2.trans (h.4 x).2⟩⟩
theorem GpsState.Keeps.trans (a b c : GpsState K) (h : a.Keeps b) (g : b.Keeps c) : a.Keeps c :=
  ⟨g.1.trans h.1, g.2.trans h.2, fun x => (g.3 (h.1.trans x)).trans (h.3 x)⟩
theorem CamState.Keeps.trans (a b c : CamState K) (h : a.Keeps b) (g : b.Keeps c) : a.Keeps c :=
  ⟨g.1.trans h.1, ⟨g.2.1.trans h.2.1, g.2.2.trans h.2.2⟩, g.3.trans h.3,
    fun x => ⟨(g.4 (h.1.trans x)).1.trans (h.4 x).1, (g.4 (h.1.trans x)).2.trans (h.4 x).2⟩⟩
theorem FidState.Keeps.trans (a b c : FidState K) (h : a.Keeps b) (g : b.Keeps c) : a.Keeps c :=
  ⟨g.1.trans h.1, ⟨g.2.1.trans h.2.1, g.2.2.trans h.2.2⟩, g.3.trans h.3,
    fun x => ⟨(g.4 (h.1.trans x)).1.trans (h.4 x).1, (g.4 (h.1.trans x)).2.trans (h.4 x).2⟩⟩

theorem ImuState.Still.trans (a b c : ImuState K) (h : a.Still b) (g : b.Still c) : a.Still c :=
  ⟨ImuState.Keeps.trans _ _ _ h.1 g.1, g.2.1.trans h.2.1, g.2.2.1.trans h.2.2.1, g.2.2.2.1.trans h.2.2.2.1, g.2.2.2.2.trans h.2.2.2.2⟩
theorem GpsState.Still.trans (a b c : GpsState K) (h : a.Still b) (g : b.Still c) : a.Still c :=
  ⟨GpsState.Keeps.trans _ _ _ h.1 g.1, g.2.trans h.2⟩
theorem CamState.Still.trans (a b c : CamState K) (h : a.Still b) (g : b.Still c) : a.Still c :=
  ⟨CamState.Keeps.trans _ _ _ h.1 g.1, g.2.1.trans h.2.1, g.2.2.trans h.2.2⟩
theorem FidState.Still.trans (a b c : FidState K) (h : a.Still b) (g : b.Still c) : a.Still c :=
  ⟨FidState.Keeps.trans _ _ _ h.1 g.1, g.2.1.trans h.2.1, g.2.2.trans h.2.2⟩

namespace State

theorem Still.refl (a : State K) : a.Still a :=
  ⟨.refl ImuState.Still.refl _, .refl GpsState.Still.refl _, .refl CamState.Still.refl _, .refl FidState.Still.refl _⟩

theorem Still.trans {a b c : State K} (h : a.Still b) (g : b.Still c) : a.Still c :=
  ⟨h.1.trans ImuState.Still.trans g.1, h.2.trans GpsState.Still.trans g.2, h.3.trans CamState.Still.trans g.3, h.4.trans FidState.Still.trans g.4⟩

theorem Keeps.trans {a b c : State K} (h : a.Keeps b) (g : b.Keeps c) : a.Keeps c :=
  ⟨h.1.trans ImuState.Keeps.trans g.1, h.2.trans GpsState.Keeps.trans g.2, h.3.trans CamState.Keeps.trans g.3, h.4.trans FidState.Keeps.trans g.4⟩

theorem Still.keeps {a b : State K} (h : a.Still b) : a.Keeps b :=
  ⟨h.1.mono fun _ _ x => x.1, h.2.mono fun _ _ x => x.1, h.3.mono fun _ _ x => x.1, h.4.mono fun _ _ x => x.1⟩

/-- Body and clones are not looked at. -/
theorem Still.rest {a a' b b' : State K} (h : a.Still b) (h1 : a'.imus = a.imus) (h2 : a'.gpss = a.gpss) (h3 : a'.cams = a.cams)
    (h4 : a'.fids = a.fids) (g1 : b'.imus = b.imus) (g2 : b'.gpss = b.gpss) (g3 : b'.cams = b.cams) (g4 : b'.fids = b.fids) :
    a'.Still b' := by
  obtain ⟨_, _, _, _, _, _⟩ := a
  obtain ⟨_, _, _, _, _, _⟩ := a'
  obtain ⟨_, _, _, _, _, _⟩ := b
  obtain ⟨_, _, _, _, _, _⟩ := b'
  subst h1 h2 h3 h4 g1 g2 g3 g4
  exact ⟨h.1, h.2, h.3, h.4⟩

theorem Still.reindex (s : State K) : s.Still s.reindex := by
  refine ⟨.accum (g := ImuState.reindex) (fun s i => ?_) _ _, .accum (g := GpsState.reindex) (fun s i => ?_) _ _,
    .accum (g := CamState.reindex) (fun s i => ?_) _ _, .accum (g := FidState.reindex) (fun s i => ?_) _ _⟩
  · unfold ImuState.reindex
    exact ⟨⟨⟨rfl, rfl⟩, ⟨rfl, rfl, rfl, rfl⟩, fun _ => ⟨rfl, rfl⟩, fun _ => ⟨rfl, rfl⟩⟩, rfl, rfl, rfl, rfl⟩
  · exact ⟨⟨rfl, rfl, fun _ => rfl⟩, rfl⟩
  · exact ⟨⟨rfl, ⟨rfl, rfl⟩, rfl, fun _ => ⟨rfl, rfl⟩⟩, rfl, rfl⟩
  · exact ⟨⟨rfl, ⟨rfl, rfl⟩, rfl, fun _ => ⟨rfl, rfl⟩⟩, rfl, rfl⟩

end State

variable [Field K] [LinearOrder K]

theorem State.Keeps.addVec {N : Prim K} {s s' : State K} {v : Vec K} (h : s.addVec N v = .ok s') : s.Keeps s' := by
  simp only [State.addVec, bind_ok_iff, pure_res, Except.ok.injEq] at h
  obtain ⟨bp, _, body, hb, ⟨imus, i1⟩, h1, ⟨gpss, i2⟩, h2, ⟨cams, i3⟩, h3, ⟨fids, i4⟩, h4, ⟨augs, i5⟩, h5, rfl⟩ := h
  refine ⟨.loop (fun a i r h => ?_) h1, .loop (fun a i r h => ?_) h2, .loop (fun a i r h => ?_) h3, .loop (fun a i r h => ?_) h4⟩
  · unfold ImuState.addVecAt at h
    rcases a with ⟨a, b, c, d, p, q, ab, ob, sz, ix, ii, ie, ext, int⟩
    cases ext <;> cases int <;> simp [bind_ok_iff, pure_res] at h
    · cases h; exact (ImuState.Still.refl _).1
    · obtain ⟨_, _, _, _, rfl⟩ := h
      exact ⟨⟨rfl, rfl⟩, ⟨rfl, rfl, rfl, rfl⟩, fun _ => ⟨rfl, rfl⟩, fun x => nomatch x⟩
    · obtain ⟨_, _, _, _, rfl⟩ := h
      exact ⟨⟨rfl, rfl⟩, ⟨rfl, rfl, rfl, rfl⟩, (fun x => nomatch x), fun _ => ⟨rfl, rfl⟩⟩
    · obtain ⟨_, _, _, _, _, _, _, _, rfl⟩ := h
      exact ⟨⟨rfl, rfl⟩, ⟨rfl, rfl, rfl, rfl⟩, (fun x => nomatch x), (fun x => nomatch x)⟩
  · unfold GpsState.addVecAt at h
    split at h
    · rename_i hx
      simp only [bind_ok_iff, pure_res, Except.ok.injEq] at h
      obtain ⟨_, _, rfl⟩ := h
      exact ⟨rfl, rfl, fun x => by rw [x] at hx; cases hx⟩
    · cases h; exact (GpsState.Still.refl _).1
  · unfold CamState.addVecAt at h
    split at h
    · rename_i hx
      simp only [bind_ok_iff, pure_res, Except.ok.injEq] at h
      obtain ⟨_, _, _, _, rfl⟩ := h
      exact ⟨rfl, ⟨rfl, rfl⟩, rfl, fun x => by rw [x] at hx; cases hx⟩
    · cases h; exact (CamState.Still.refl _).1
  · unfold FidState.addVecAt at h
    split at h
    · rename_i hx
      simp only [bind_ok_iff, pure_res, Except.ok.injEq] at h
      obtain ⟨_, _, _, _, rfl⟩ := h
      exact ⟨rfl, ⟨rfl, rfl⟩, rfl, fun x => by rw [x] at hx; cases hx⟩
    · cases h; exact (FidState.Still.refl _).1

namespace Ekf

theorem still_refresh {N : Prim K} {e e' : Ekf K} (h : refreshIndices N e = .ok e') : e.state.Still e'.state := by
  rw [refreshIndices_state h]; exact State.Still.reindex _

theorem still_pruneLoop {N : Prim K} {n : Nat} {e e' : Ekf K} (h : pruneLoop N n e = .ok e') : e.state.Still e'.state := by
  induction n generalizing e with
  | zero => cases h; exact State.Still.refl _
  | succ n ih =>
    simp only [pruneLoop, bind_ok_iff] at h
    obtain ⟨e1, h1, h2⟩ := h
    refine State.Still.trans ?_ (ih h2)
    obtain ⟨_, _, ⟨_, rfl⟩ | ⟨_, _, _, _, _, h⟩⟩ := pruneAt_form h1
    · exact State.Still.refl _
    · exact (still_refresh h).rest rfl rfl rfl rfl rfl rfl rfl rfl

theorem still_augmentTimed {N : Prim K} {e e' : Ekf K} (h : augmentTimed N e = .ok e') : e.state.Still e'.state := by
  obtain ⟨_, rfl⟩ | ⟨_, _, e1, _, h1, h⟩ := augmentTimed_form h
  · exact State.Still.refl _
  · have hs1 := still_pruneLoop h1
    obtain ⟨_, rfl⟩ | ⟨_, e2, e3, h2, h3, rfl⟩ := h
    · exact hs1.rest rfl rfl rfl rfl rfl rfl rfl rfl
    · have := still_refresh h2
      obtain ⟨_, _, _, _, rfl⟩ := augmentAtBack_form h3
      exact (State.Still.trans hs1 (this.rest rfl rfl rfl rfl rfl rfl rfl rfl)).rest rfl rfl rfl rfl rfl rfl rfl rfl

theorem still_step {N : Prim K} {e e' : Ekf K} {op : Op K} (ho : ¬ op.IsUpdate) (h : step N e op = .ok e') : e.state.Still e'.state := by
  cases op with
  | registerIMU id s c =>
    obtain ⟨_, rfl⟩ | ⟨hk, _, _, h⟩ := registerIMU_form h
    · exact State.Still.refl _
    · refine State.Still.trans ?_ (still_refresh h)
      exact ⟨.insert ImuState.Still.refl hk, (State.Still.refl e.state).2, (State.Still.refl e.state).3, (State.Still.refl e.state).4⟩
  | registerGPS id s c =>
    obtain ⟨_, rfl⟩ | ⟨hk, _, _, h⟩ := registerGPS_form h
    · exact State.Still.refl _
    · refine State.Still.trans ?_ (still_refresh h)
      exact ⟨(State.Still.refl e.state).1, .insert GpsState.Still.refl hk, (State.Still.refl e.state).3, (State.Still.refl e.state).4⟩
  | registerCamera id s c =>
    obtain ⟨_, rfl⟩ | ⟨hk, _, _, _, h⟩ := registerCamera_form h
    · exact State.Still.refl _
    · refine State.Still.trans ?_ (still_refresh h)
      exact ⟨(State.Still.refl e.state).1, (State.Still.refl e.state).2, .insert CamState.Still.refl hk, (State.Still.refl e.state).4⟩
  | registerFiducial s c =>
    obtain ⟨_, rfl⟩ | ⟨hk, _, _, h⟩ := registerFiducial_form h
    · exact State.Still.refl _
    · refine State.Still.trans ?_ (still_refresh h)
      exact ⟨(State.Still.refl e.state).1, (State.Still.refl e.state).2, (State.Still.refl e.state).3, .insert FidState.Still.refl hk⟩
  | predict t =>
    obtain ⟨_, rfl⟩ | ⟨_, b, out, hb, h⟩ := predict_form h
    · exact State.Still.refl _
    · exact (still_augmentTimed h).rest rfl rfl rfl rfl rfl rfl rfl rfl
  | frame c f =>
    obtain ⟨_, rfl⟩ | ⟨_, e1, h1, h2⟩ := augmentFrame_form h
    · exact State.Still.refl _
    · obtain ⟨_, _, _, _, rfl⟩ := augmentAtBack_form h2
      show e.state.Still e1.state
      obtain ⟨_, h1⟩ | ⟨_, first, rest, out, hw, _, h1⟩ := h1
      · exact (still_refresh h1).rest rfl rfl rfl rfl rfl rfl rfl rfl
      · exact (still_refresh h1).rest rfl rfl rfl rfl rfl rfl rfl rfl
  | kalman j r n => exact absurd trivial ho
  | getImu id => cases h; exact ⟨.touch ImuState.Still.refl _ _ _, (State.Still.refl e.state).2, (State.Still.refl e.state).3, (State.Still.refl e.state).4⟩
  | getGps id => cases h; exact ⟨(State.Still.refl e.state).1, .touch GpsState.Still.refl _ _ _, (State.Still.refl e.state).3, (State.Still.refl e.state).4⟩
  | getCam id => cases h; exact ⟨(State.Still.refl e.state).1, (State.Still.refl e.state).2, .touch CamState.Still.refl _ _ _, (State.Still.refl e.state).4⟩
  | getAug c f t =>
    simp only [step, bind_ok_iff, pure_res, Except.ok.injEq] at h
    obtain ⟨r, h, rfl⟩ := h
    obtain ⟨key, hk⟩ := getAugState_form h
    rw [hk]; exact (State.Still.refl e.state).rest rfl rfl rfl rfl rfl rfl rfl rfl
  | initializeAt t b => cases h; exact (State.Still.refl e.state).rest rfl rfl rfl rfl rfl rfl rfl rfl
  | setMaxTrackLength n => cases h; exact (State.Still.refl e.state).rest rfl rfl rfl rfl rfl rfl rfl rfl
  | setGpsReference p a => cases h; exact (State.Still.refl e.state).rest rfl rfl rfl rfl rfl rfl rfl rfl
  | setZeroAcceleration b => cases h; exact (State.Still.refl e.state).rest rfl rfl rfl rfl rfl rfl rfl rfl
  | initializeGravity => cases h; exact (State.Still.refl e.state).rest rfl rfl rfl rfl rfl rfl rfl rfl
  | localTime t =>
    simp only [step, Except.ok.injEq] at h
    subst h
    unfold calculateLocalTime
    split <;> exact (State.Still.refl e.state).rest rfl rfl rfl rfl rfl rfl rfl rfl
  | setBodyProcessNoise v => cases h; exact (State.Still.refl e.state).rest rfl rfl rfl rfl rfl rfl rfl rfl
  | attemptGpsInit t x f => obtain ⟨_, _, _, _, rfl⟩ := attemptGpsInit_form h; exact (State.Still.refl e.state).rest rfl rfl rfl rfl rfl rfl rfl rfl
  | setBodyMotion a w α => cases h; exact (State.Still.refl e.state).rest rfl rfl rfl rfl rfl rfl rfl rfl

theorem keeps_step {N : Prim K} {e e' : Ekf K} {op : Op K} (h : step N e op = .ok e') : e.state.Keeps e'.state := by
  by_cases ho : op.IsUpdate
  · cases op <;> try exact ho.elim
    obtain ⟨s, c, v, rfl, h, _, _⟩ := kalmanUpdate_form h
    exact State.Keeps.addVec h
  · exact (still_step ho h).keeps

end Ekf
end EkfCal
