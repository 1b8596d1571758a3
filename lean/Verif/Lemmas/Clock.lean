import Verif.Lemmas.UpdaterOps

/-!
# The clock does not move while one message is processed
-/

set_option linter.unusedSectionVars false

namespace EkfCal
open Ekf
variable {K : Type} [Field K] [LinearOrder K]

theorem frame_getCam (e : Ekf K) (i : Nat) : Frame e (e.getCamState i).2 :=
  (frame2_of _ _ _ _ _ _ _ _ _ _).toFrame

namespace MsckfUpdater

theorem triangulateLoop_frame {N : Num K} {u : MsckfUpdater K} {a0 : AugState K}
    {ps : List (FeaturePoint K)} : ∀ {e : Ekf K} {A : M3 K} {b : V3 K} {r : M3 K × V3 K × Ekf K},
    u.triangulateLoop N a0 ps e A b = .ok r → Frame e r.2.2 := by
  induction ps with
  | nil => intro e A b r h; cases h; exact Frame.refl e
  | cons p ps ih =>
    intro e A b r h
    simp only [triangulateLoop, bind_ok_iff] at h
    obtain ⟨⟨ai, e1⟩, h1, h2⟩ := h
    exact Frame.trans (frame2_getAug h1).toFrame (ih h2)

theorem triangulate_frame {N : Num K} {u : MsckfUpdater K} {e : Ekf K} {f : FeatureTrack K}
    {r : Bool × Option (V3 K) × Ekf K} (h : u.triangulate N e f = .ok r) : Frame e r.2.2 := by
  unfold triangulate at h
  split at h
  · cases h
  · simp only [bind_ok_iff] at h
    obtain ⟨⟨a0, e1⟩, h1, ⟨A, b, e2⟩, h2, h⟩ := h
    have g : Frame e e2 := Frame.trans (frame2_getAug h1).toFrame (triangulateLoop_frame h2)
    dsimp only at h
    split at h <;> split at h <;> (cases h; exact g)

theorem observeLoop_frame {N : Num K} {u : MsckfUpdater K} {n c : Nat} {posF : V3 K}
    {ps : List (FeaturePoint K)} : ∀ {i : Nat} {e : Ekf K} {s : Mat K × Mat K × Vec K}
    {r : Ekf K × Mat K × Mat K × Vec K}, u.observeLoop N n c posF i ps e s = .ok r → Frame e r.1 := by
  induction ps with
  | nil => intro i e s r h; cases h; exact Frame.refl e
  | cons p ps ih =>
    intro i e s r h
    simp only [observeLoop, bind_ok_iff] at h
    obtain ⟨⟨a, e1⟩, h1, s1, _, h2⟩ := h
    exact Frame.trans (frame2_getAug h1).toFrame (ih h2)

theorem featureLoop_frame {N : Num K} {u : MsckfUpdater K} {n c : Nat}
    {fs : List (FeatureTrack K)} : ∀ {e : Ekf K} {ct : Nat} {H : Mat K} {v : Vec K} {r : Ekf K × Nat × Mat K × Vec K},
    u.featureLoop N n c fs e ct H v = .ok r → Frame e r.1 := by
  induction fs with
  | nil => intro e ct H v r h; cases h; exact Frame.refl e
  | cons f fs ih =>
    intro e ct H v r h
    simp only [featureLoop, bind_ok_iff] at h
    obtain ⟨⟨ok, posF, e1⟩, h1, h⟩ := h
    have g1 : Frame e e1 := triangulate_frame h1
    dsimp only at h
    split at h
    · exact g1.trans (ih h)
    · split at h
      · cases h
      · simp only [bind_ok_iff] at h
        obtain ⟨⟨e2, Hf, Hc, res⟩, h2, ⟨Hc', res'⟩, _, H', _, _, _, h⟩ := h
        exact g1.trans ((observeLoop_frame h2).trans (ih h))

theorem process_frame {N : Num K} {u : MsckfUpdater K} {e e' : Ekf K}
    {fs : List (FeatureTrack K)} {px : K} (h : u.process N e fs px = .ok e') : Frame e e' := by
  unfold process at h
  simp only [bind_ok_iff, ok_bind, pure_res] at h
  obtain ⟨⟨e2, ct, H, v⟩, h2, h⟩ := h
  have g2 : Frame e e2 := featureLoop_frame h2
  dsimp only at h
  split at h
  · cases h; exact g2
  · simp only [bind_ok_iff, ok_bind] at h
    obtain ⟨⟨H', v'⟩, _, h⟩ := h
    dsimp only at h
    split at h
    · cases h; exact g2
    · exact g2.trans (frame2_kalman h).toFrame

end MsckfUpdater

/-- The filter has reached the time of a message with stamp `time`. -/
def Ekf.Settled (time : K) (e : Ekf K) : Prop := e.timeInitialized = true ∧ time - e.referenceTime ≤ e.currentTime

theorem Ekf.Settled.frame {time : K} {e e' : Ekf K} (h : e.Settled time) (f : Frame e e') : e'.Settled time :=
  ⟨f.timeInitialized.trans h.1, by rw [f.referenceTime, f.currentTime]; exact h.2⟩

/-- Predicting once more to the same message does nothing to the clock. -/
theorem Ekf.Settled.predict {N : Prim K} {time : K} {e e' : Ekf K} (h : e.Settled time)
    (hp : (e.calculateLocalTime time).2.predict N (e.calculateLocalTime time).1 = .ok e') : Frame e e' := by
  unfold calculateLocalTime at hp
  rw [if_pos h.1] at hp
  dsimp only at hp
  by_cases hlt : time - e.referenceTime < e.currentTime
  · unfold Ekf.predict at hp
    rw [if_pos hlt] at hp
    cases hp
    exact Frame.refl e
  · have heq : time - e.referenceTime = e.currentTime := le_antisymm h.2 (not_lt.1 hlt)
    have := (frame2_predict hlt hp).toFrame
    rw [heq] at this
    exact this

/-- Processing a message begins by reaching its time. -/
theorem settled_predict [IsStrictOrderedRing K] {N : Prim K} {time : K} {e e' : Ekf K}
    (hp : (e.calculateLocalTime time).2.predict N (e.calculateLocalTime time).1 = .ok e') : e'.Settled time := by
  have key : ∀ {a b : Ekf K}, a.timeInitialized = true → a.predict N (time - a.referenceTime) = .ok b → b.Settled time := by
    intro a b ht hp
    by_cases hlt : time - a.referenceTime < a.currentTime
    · unfold Ekf.predict at hp
      rw [if_pos hlt] at hp
      cases hp
      exact ⟨ht, hlt.le⟩
    · have f := (frame2_predict hlt hp).toFrame
      exact ⟨f.timeInitialized.trans ht, by rw [f.referenceTime, f.currentTime]⟩
  unfold calculateLocalTime at hp
  split at hp
  · rename_i ht
    exact key ht hp
  · refine key (a := { e with referenceTime := time, timeInitialized := true, currentTime := 0 }) rfl ?_
    dsimp only
    rw [sub_self]
    exact hp

theorem MsckfUpdater.update_frame {N : Num K} {u : MsckfUpdater K} {e : Ekf K} {time : K} {intr : Intrinsics K}
    {fs : List (FeatureTrack K)} {px : K} {r : MsckfUpdater K × Ekf K} (h : u.update N e time intr fs px = .ok r)
    (hs : e.Settled time) : Frame e r.2 := by
  obtain ⟨e1, h1, h⟩ := update_form h
  have g1 := hs.predict h1
  rcases h with ⟨_, rfl⟩ | ⟨_, e2, h2, _, h⟩
  · exact g1
  · rw [h2] at h
    exact g1.trans ((frame_getCam _ _).trans (process_frame h))

theorem FidUpdater.update_frame {N : Num K} {u : FidUpdater K} {e : Ekf K} {time : K} {d : BoardDetection K}
    {r : FidUpdater K × Ekf K} (h : u.update N e time d = .ok r) (hs : e.Settled time) : Frame e r.2 := by
  unfold update at h
  simp only [bind_ok_iff] at h
  obtain ⟨e1, h1, h⟩ := h
  have g1 := (hs.predict h1).trans (frame_getCam _ u.cameraId)
  split at h
  · cases h
  · simp only [bind_ok_iff, pure_res, Except.ok.injEq] at h
    obtain ⟨jac, hj, noise, hn, e2, hk, rfl⟩ := h
    exact g1.trans (frame2_kalman hk).toFrame

end EkfCal
