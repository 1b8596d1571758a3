import Verif.Lemmas.Inv
import Verif.Spec.Samples

/-!
# C02 — state indices tile the state vector
-/

namespace EkfCal
open Ekf
variable {K : Type} [Field K] [LinearOrder K]

/-- After any defined history the published index ranges (body, IMUs, GPS antennas, cameras, fiducials, clones; inside a
kind by increasing id, inside a clone window by age) follow each other without gap or overlap from 0 to the state
size. -/
theorem C02_indices_tile (N : Prim K) (p : EkfParams K) (ops : List (Op K)) (hw : ∀ op ∈ ops, op.WF) (e : Ekf K)
    (h : run N (init N p) ops = .ok e) :
    Tiles e.state.blocks 0 e.stateSize ∧ e.state.MapsSorted := by
  have hi := inv_run (inv_init N p) hw h
  exact ⟨hi.tiles, hi.sorted⟩

/-- Consequence: every published range lies inside the state, ranges are disjoint and every row belongs to one. -/
theorem C02_ranges (N : Prim K) (p : EkfParams K) (ops : List (Op K)) (hw : ∀ op ∈ ops, op.WF) (e : Ekf K)
    (h : run N (init N p) ops = .ok e) :
    (∀ b ∈ e.state.blocks, b.1 + b.2 ≤ e.stateSize) ∧
    (e.state.blocks.Pairwise fun x y => x.1 + x.2 ≤ y.1) ∧
    (∀ i < e.stateSize, ∃ b ∈ e.state.blocks, b.1 ≤ i ∧ i < b.1 + b.2) := by
  have ht := (C02_indices_tile N p ops hw e h).1
  exact ⟨fun b hb => (ht.mem_bounds hb).2, ht.pairwise, fun i hi => ht.cover (Nat.zero_le i) hi⟩

/-- The ranges of a concrete defined history. -/
example : ∃ e, run Samples.prim (init Samples.prim (Samples.params .all false)) Samples.ops = .ok e ∧
    e.state.blocks = [(0, 18), (18, 6), (24, 6), (30, 6), (36, 3), (39, 6), (45, 6), (51, 6), (57, 6)] :=
  ⟨_, rfl, rfl⟩

end EkfCal
