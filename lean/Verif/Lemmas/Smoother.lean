import Verif.Model.Smoother
import Verif.Spec.Smoother
import Verif.Lemmas.Mat
import Mathlib.Tactic.Linarith
import Mathlib.Tactic.Ring
import Mathlib.Tactic.FieldSimp
import Mathlib.Tactic.Module
import Mathlib.Algebra.Order.Floor.Ring

/-!
# Lemmas about the tabulated truth
-/

namespace EkfCal

theorem readAt_ok_iff {α : Type} {l : List α} {i : Nat} {x : α} : readAt l i = .ok x ↔ l[i]? = some x := by
  unfold readAt
  cases h : l[i]? with
  | none => simp
  | some y => simp

theorem readAt_lt {α : Type} {l : List α} {i : Nat} (h : i < l.length) : readAt l i = .ok l[i] :=
  readAt_ok_iff.2 (by simp [h])

theorem readAt_ge {α : Type} {l : List α} {i : Nat} (h : l.length ≤ i) : readAt l i = .error .outOfRange := by
  unfold readAt
  rw [List.getElem?_eq_none h]

section
variable {K : Type} [Field K] [LinearOrder K]

omit [Field K] in
theorem advance_spec (times : List K) (t : K) (ht : ∃ x, times.getLast? = some x ∧ t < x) (n j : Nat)
    (hn : n + j = times.length) (hj : ∃ x, times[j]? = some x ∧ x ≤ t) :
    ∃ k t0 t1, advance times t n j = .ok k ∧ times[k]? = some t0 ∧ times[k + 1]? = some t1 ∧ t0 ≤ t ∧ t ≤ t1 := by
  induction n generalizing j with
  | zero =>
    obtain ⟨x, hx, -⟩ := hj
    rw [List.getElem?_eq_none (by omega)] at hx
    cases hx
  | succ n ih =>
    obtain ⟨x, hx, hxt⟩ := hj
    obtain ⟨y, hy, hty⟩ := ht
    have hlen : j + 1 < times.length := by
      by_contra hcon
      have hlt : j < times.length := (List.getElem?_eq_some_iff.1 hx).1
      have : j = times.length - 1 := by omega
      rw [List.getLast?_eq_getElem?, ← this, hx] at hy
      cases hy
      exact absurd hty (not_lt.2 hxt)
    rw [advance, readAt_ok_iff.2 hx, ok_bind, if_neg (not_lt.2 hxt), readAt_lt hlen, ok_bind]
    split_ifs with h
    · exact ih (j + 1) (by omega) ⟨_, by simp [hlen], h.le⟩
    · exact ⟨j, x, _, rfl, hx, by simp [hlen], hxt, not_lt.1 h⟩

end

section
variable {K : Type} [Field K] [LinearOrder K] [IsStrictOrderedRing K]

omit [Field K] [IsStrictOrderedRing K] in
theorem getElem?_lt_of_pairwise {l : List K} (h : l.Pairwise (· < ·)) {i j : Nat} {a b : K} (hij : i < j)
    (ha : l[i]? = some a) (hb : l[j]? = some b) : a < b := by
  obtain ⟨h1, rfl⟩ := List.getElem?_eq_some_iff.1 ha
  obtain ⟨h2, rfl⟩ := List.getElem?_eq_some_iff.1 hb
  exact List.pairwise_iff_getElem.1 h i j h1 h2 hij

theorem interpLoop_spec (times : List K) (vectors : List (V3 K)) (first last : K) (hs : times.Pairwise (· < ·))
    (hf : times[0]? = some first) (hl : times.getLast? = some last) (hv : times.length ≤ vectors.length) (samples : List K)
    (hm : samples.Pairwise (· ≤ ·)) (j : Nat)
    (hj : ∃ x, times[j]? = some x ∧ ∀ s ∈ samples, first < s → x ≤ s) :
    ∃ out, interpLoop times vectors samples j = .ok out ∧
      List.Forall₂ (SampleOf times vectors first last) samples out := by
  induction samples generalizing j with
  | nil => exact ⟨[], rfl, .nil⟩
  | cons t ts ih =>
    obtain ⟨x, hx, hxs⟩ := hj
    have hm' := List.pairwise_cons.1 hm
    rw [interpLoop, readAt_ok_iff.2 hf, ok_bind, hl]
    dsimp only
    by_cases hin : first < t ∧ t < last
    · have hjl : j < times.length := (List.getElem?_eq_some_iff.1 hx).1
      obtain ⟨k, t0, t1, hk, h0, h1, h0t, ht1⟩ := advance_spec times t ⟨last, hl, hin.2⟩ (times.length - j) j (by omega)
        ⟨x, hx, hxs t (by simp) hin.1⟩
      have hk1 : k + 1 < times.length := (List.getElem?_eq_some_iff.1 h1).1
      have hlt : t0 < t1 := getElem?_lt_of_pairwise hs (Nat.lt_succ_self k) h0 h1
      have hne : t1 - t0 ≠ 0 := (sub_pos.2 hlt).ne'
      obtain ⟨rest, hr, hrest⟩ := ih hm'.2 k ⟨t0, h0, fun s hs' _ => h0t.trans (hm'.1 s hs')⟩
      rw [if_pos hin, hk, ok_bind, if_neg (by omega), readAt_ok_iff.2 h0, ok_bind, readAt_ok_iff.2 h1, ok_bind,
        guardUB_true hne, ok_bind, readAt_lt (l := vectors) (i := k) (by omega), ok_bind,
        readAt_lt (l := vectors) (i := k + 1) (by omega), ok_bind, hr, ok_bind]
      refine ⟨_, rfl, .cons ⟨fun _ => ⟨k, t0, t1, _, _, h0, h1, List.getElem?_eq_getElem (by omega),
        List.getElem?_eq_getElem (by omega), h0t, ht1, ?_⟩, fun h => absurd hin h⟩ hrest⟩
      funext i
      simp only [Pi.smul_apply, Pi.add_apply, Pi.sub_apply, smul_eq_mul]
      field_simp
      ring
    · obtain ⟨rest, hr, hrest⟩ := ih hm'.2 j ⟨x, hx, fun s hs' h => hxs s (by simp [hs']) h⟩
      rw [if_neg hin, hr, ok_bind]
      exact ⟨_, rfl, .cons ⟨fun h => absurd h hin, fun _ => rfl⟩ hrest⟩

theorem derivLoop_spec (times : List K) (hs : times.Pairwise (· < ·)) (i : Nat) (values : List (V3 K))
    (hl : i + values.length ≤ times.length) :
    ∃ ds, derivLoop times i values = .ok ds ∧ ds.length = values.length - 1 ∧
      ∀ k, k + 1 < values.length → ∃ t0 t1 a b d, times[i + k]? = some t0 ∧ times[i + k + 1]? = some t1 ∧ t0 < t1 ∧
        values[k]? = some a ∧ values[k + 1]? = some b ∧ ds[k]? = some d ∧ (t1 - t0) • d = b - a := by
  induction values generalizing i with
  | nil => exact ⟨[], rfl, rfl, fun k h => by simp at h⟩
  | cons a rest ih =>
    cases rest with
    | nil => exact ⟨[], rfl, rfl, fun k h => by simp at h⟩
    | cons b rest =>
      simp only [List.length_cons] at hl
      obtain ⟨ds, hd, hdl, hds⟩ := ih (i + 1) (by simp only [List.length_cons]; omega)
      have h0 : i < times.length := by omega
      have h1 : i + 1 < times.length := by omega
      have hlt : times[i] < times[i + 1] := List.pairwise_iff_getElem.1 hs i (i + 1) h0 h1 (Nat.lt_succ_self i)
      have hne : times[i + 1] - times[i] ≠ 0 := (sub_pos.2 hlt).ne'
      rw [derivLoop, readAt_lt h1, ok_bind, readAt_lt h0, ok_bind, guardUB_true hne, ok_bind, hd, ok_bind]
      refine ⟨_, rfl, by simp [hdl], ?_⟩
      intro k hk
      cases k with
      | zero =>
        refine ⟨_, _, a, b, _, List.getElem?_eq_getElem h0, List.getElem?_eq_getElem h1, hlt, rfl, rfl, rfl, ?_⟩
        rw [smul_smul, mul_inv_cancel₀ hne, one_smul]
      | succ k =>
        obtain ⟨t0, t1, a', b', d, ht0, ht1, hlt', ha, hb, hd', he⟩ := hds k (by simpa using hk)
        refine ⟨t0, t1, a', b', d, ?_, ?_, hlt', by simpa using ha, by simpa using hb, by simpa using hd', he⟩
        · rw [← ht0]; congr 1; omega
        · rw [← ht1]; congr 1; omega

omit [IsStrictOrderedRing K] in
theorem accelLoop_error (times : List K) (data : List (V3 K)) (n i : Nat) (m : K) (h : i + n = data.length) (hn : 0 < n) :
    ∃ u, accelLoop times data n i m = .error u := by
  induction n generalizing i m with
  | zero => omega
  | succ n ih =>
    rw [accelLoop]
    by_cases h1 : i + 1 < data.length
    · rw [readAt_lt h1, ok_bind, readAt_lt (l := data) (i := i) (by omega), ok_bind,
        readAt_lt (l := data) (i := i - 1) (by omega), ok_bind]
      cases ha : readAt times (i + 1) with
      | error u => exact ⟨u, rfl⟩
      | ok t1 =>
        rw [ok_bind]
        cases hb : readAt times (i - 1) with
        | error u => exact ⟨u, rfl⟩
        | ok t0 =>
          rw [ok_bind]
          by_cases hne : t1 - t0 ≠ 0
          · rw [guardUB_true hne, ok_bind]
            exact ih (i + 1) _ (by omega) (by omega)
          · exact ⟨.nonFinite, by rw [guardUB, if_neg hne]; rfl⟩
    · rw [readAt_ge (by omega)]
      exact ⟨_, rfl⟩

theorem accelLoop_outside (times : List K) (data : List (V3 K)) (hs : times.Pairwise (· < ·))
    (ht : data.length ≤ times.length) (n i : Nat) (m : K) (h : i + n = data.length) (hn : 0 < n) (hi : 0 < i) :
    accelLoop times data n i m = .error .outOfRange := by
  induction n generalizing i m with
  | zero => omega
  | succ n ih =>
    rw [accelLoop]
    by_cases h1 : i + 1 < data.length
    · have hlt := List.pairwise_iff_getElem.1 hs (i - 1) (i + 1) (by omega) (by omega) (by omega)
      rw [readAt_lt h1, ok_bind, readAt_lt (l := data) (i := i) (by omega), ok_bind,
        readAt_lt (l := data) (i := i - 1) (by omega), ok_bind, readAt_lt (l := times) (i := i + 1) (by omega), ok_bind,
        readAt_lt (l := times) (i := i - 1) (by omega), ok_bind, guardUB_true (sub_pos.2 hlt).ne', ok_bind]
      exact ih (i + 1) _ (by omega) (by omega) (by omega)
    · rw [readAt_ge (by omega)]
      rfl

end

section
variable {K : Type} [Field K] [LinearOrder K]

omit [LinearOrder K] in
theorem windowSum_spec (data : List (V3 K)) (i n : Nat) (h : i + n ≤ data.length) :
    windowSum data i n = .ok (∑ j ∈ Finset.range n, data.getD (i + j) 0) := by
  induction n with
  | zero => simp [windowSum]
  | succ n ih =>
    rw [windowSum, ih (by omega), ok_bind, readAt_lt (l := data) (i := i + n) (by omega), ok_bind, Finset.sum_range_succ,
      List.getD_eq_getElem?_getD, List.getElem?_eq_getElem (by omega : i + n < data.length)]
    rfl

theorem mapM_ok_of {α β : Type} (f : α → Res β) (g : α → β) (l : List α) (h : ∀ x ∈ l, f x = .ok (g x)) :
    l.mapM f = .ok (l.map g) := by
  induction l with
  | nil => rfl
  | cons a l ih =>
    rw [List.mapM_cons, h a (by simp), ok_bind, ih fun x hx => h x (by simp [hx])]
    rfl

omit [LinearOrder K] in
theorem padded_getD (data : List (V3 K)) (b i : Nat) :
    (List.replicate b (0 : V3 K) ++ data ++ List.replicate b 0).getD i 0 = entryOr0 data ((i : Int) - b) := by
  unfold entryOr0
  rw [List.getD_eq_getElem?_getD]
  by_cases h1 : i < b
  · rw [if_neg (by omega), List.append_assoc, List.getElem?_append_left (by simpa using h1),
      List.getElem?_replicate, if_pos h1]
    rfl
  · rw [if_pos (by omega), List.append_assoc, List.getElem?_append_right (by simpa using h1), List.length_replicate]
    have : ((i : Int) - b).toNat = i - b := by omega
    rw [this, List.getD_eq_getElem?_getD]
    by_cases h2 : i - b < data.length
    · rw [List.getElem?_append_left h2]
    · rw [List.getElem?_append_right (by omega), List.getElem?_eq_none (l := data) (by omega), List.getElem?_replicate]
      split_ifs <;> rfl

end
end EkfCal
