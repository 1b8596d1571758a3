import Verif.Spec.Csv
import Verif.Lemmas.UMap

/-!
# Lemmas about CSV text
-/

namespace EkfCal

/-- The text of fields that follow another one. -/
def tailText (l : List String) : String := String.join (l.map fun y => "," ++ y)

theorem foldl_append_eq (l : List String) (s : String) : l.foldl (· ++ ·) s = s ++ l.foldl (· ++ ·) "" := by
  induction l generalizing s with
  | nil => simp
  | cons x xs ih => rw [List.foldl_cons, List.foldl_cons, ih (s ++ x), ih ("" ++ x), String.empty_append, String.append_assoc]

theorem join_nil : String.join [] = "" := rfl

theorem join_cons (x : String) (xs : List String) : String.join (x :: xs) = x ++ String.join xs := by
  show (x :: xs).foldl (· ++ ·) "" = x ++ xs.foldl (· ++ ·) ""
  rw [List.foldl_cons, foldl_append_eq, String.empty_append]

theorem join_append (a b : List String) : String.join (a ++ b) = String.join a ++ String.join b := by
  induction a with
  | nil => simp [join_nil]
  | cons x xs ih => rw [List.cons_append, join_cons, join_cons, ih, String.append_assoc]

theorem tailText_nil : tailText [] = "" := rfl
theorem tailText_cons (x : String) (xs : List String) : tailText (x :: xs) = "," ++ x ++ tailText xs := by
  rw [tailText, List.map_cons, join_cons]; rfl
theorem tailText_append (a b : List String) : tailText (a ++ b) = tailText a ++ tailText b := by
  rw [tailText, List.map_append, join_append]; rfl
theorem csv_cons (x : String) (xs : List String) : csv (x :: xs) = x ++ tailText xs := rfl

theorem count_tailText (l : List String) (h : ∀ x ∈ l, ',' ∉ x.toList) : (tailText l).toList.count ',' = l.length := by
  induction l with
  | nil => rfl
  | cons x xs ih =>
    rw [tailText_cons, String.toList_append, String.toList_append, List.count_append, List.count_append,
      ih fun y hy => h y (List.mem_cons_of_mem _ hy), List.count_eq_zero_of_not_mem (h x List.mem_cons_self)]
    simp
    omega

/-- A text of fields without commas has as many fields. -/
theorem fieldCount_csv (l : List String) (hl : l ≠ []) (h : ∀ x ∈ l, ',' ∉ x.toList) : fieldCount (csv l) = l.length := by
  cases l with
  | nil => exact absurd rfl hl
  | cons x xs =>
    rw [fieldCount, csv_cons, String.toList_append, List.count_append, count_tailText xs fun y hy => h y (List.mem_cons_of_mem _ hy),
      List.count_eq_zero_of_not_mem (h x List.mem_cons_self), List.length_cons, Nat.zero_add]

theorem comma_nat (n : Nat) : ',' ∉ (toString n).toList := by
  show ',' ∉ n.repr.toList
  rw [Nat.toList_repr]
  intro h
  exact absurd (Nat.isDigit_of_mem_toDigits (by decide) (by decide) h) (by decide)

theorem comma_int (n : Int) : ',' ∉ (toString n).toList := by
  cases n with
  | ofNat n => exact comma_nat n
  | negSucc n =>
    show ',' ∉ ("-" ++ (n + 1).repr).toList
    rw [String.toList_append]
    intro h
    rcases List.mem_append.1 h with h | h
    · revert h; decide
    · exact comma_nat (n + 1) h

variable {K : Type}

theorem comma_cell {P : Printer K} (hP : P.Law) (c : Cell K) : ',' ∉ (c.show P).toList := by
  cases c with
  | num x p => exact hP p x
  | int n => exact comma_int n
  | nat n => exact comma_nat n

/-- No name of a column holds a comma. -/
def Columns.Named (cols : Columns K) : Prop := ∀ c ∈ cols, ',' ∉ c.1.toList

/-- Header and row of the same columns have the same number of fields. -/
theorem Columns.Writes.count {P : Printer K} (hP : P.Law) {cols : Columns K} {header row : String} (h : cols.Writes P header row)
    (hc : cols ≠ []) (hn : cols.Named) : fieldCount header = cols.length ∧ fieldCount row = cols.length := by
  obtain ⟨rfl, rfl⟩ := h
  constructor
  · rw [fieldCount_csv _ (by simpa using hc), List.length_map]
    intro x hx
    obtain ⟨c, hm, rfl⟩ := List.mem_map.1 hx
    exact hn c hm
  · rw [fieldCount_csv _ (by simpa using hc), List.length_map]
    intro x hx
    obtain ⟨c, _, rfl⟩ := List.mem_map.1 hx
    exact comma_cell hP c.2

theorem named_nil : Columns.Named ([] : Columns K) := fun _ h => absurd h List.not_mem_nil
theorem named_append {a b : Columns K} (ha : a.Named) (hb : b.Named) : Columns.Named (a ++ b) := fun c hc =>
  (List.mem_append.1 hc).elim (ha c) (hb c)
theorem named_cons {a : String} {x : Cell K} {b : Columns K} (ha : ',' ∉ a.toList) (hb : b.Named) : Columns.Named ((a, x) :: b) :=
  fun c hc => (List.mem_cons.1 hc).elim (fun h => h ▸ ha) (hb c)
theorem named_ite {p : Prop} [Decidable p] {a b : Columns K} (ha : a.Named) (hb : b.Named) : Columns.Named (if p then a else b) := by
  split_ifs <;> assumption
theorem named_group {name : String} (h : ',' ∉ name.toList) (n : Nat) (f : Nat → K) (p : Nat) : (group name n f p).Named := by
  intro c hc
  obtain ⟨i, -, rfl⟩ := List.mem_map.1 hc
  show ',' ∉ (name ++ "_" ++ toString i).toList
  rw [String.toList_append, String.toList_append, List.mem_append, List.mem_append]
  rintro ((h1 | h1) | h1)
  · exact h h1
  · revert h1; decide
  · exact comma_nat i h1
theorem comma_append {a b : String} (ha : ',' ∉ a.toList) (hb : ',' ∉ b.toList) : ',' ∉ (a ++ b).toList := by
  rw [String.toList_append, List.mem_append]
  rintro (h | h)
  · exact ha h
  · exact hb h
theorem named_group3 {name : String} (h : ',' ∉ name.toList) (v : V3 K) (p : Nat) : (group3 name v p).Named :=
  named_cons (comma_append h (by decide)) (named_cons (comma_append h (by decide)) (named_cons (comma_append h (by decide)) named_nil))
theorem named_group4 {name : String} (h : ',' ∉ name.toList) (q : Quat K) : (group4 name q).Named :=
  named_cons (comma_append h (by decide)) (named_cons (comma_append h (by decide)) (named_cons (comma_append h (by decide))
    (named_cons (comma_append h (by decide)) named_nil)))

/-- The header of columns that follow others. -/
def heads (cols : Columns K) : String := tailText (cols.map Prod.fst)
/-- The text of columns that follow others. -/
def cells (P : Printer K) (cols : Columns K) : String := tailText (cols.map fun c => c.2.show P)

theorem heads_append (a b : Columns K) : heads (a ++ b) = heads a ++ heads b := by
  rw [heads, List.map_append, tailText_append]; rfl
theorem cells_append (P : Printer K) (a b : Columns K) : cells P (a ++ b) = cells P a ++ cells P b := by
  rw [cells, List.map_append, tailText_append]; rfl
theorem heads_nil : heads ([] : Columns K) = "" := rfl
theorem cells_nil (P : Printer K) : cells P ([] : Columns K) = "" := rfl
theorem heads_cons (c : String × Cell K) (a : Columns K) : heads (c :: a) = "," ++ c.1 ++ heads a := tailText_cons ..
theorem cells_cons (P : Printer K) (c : String × Cell K) (a : Columns K) : cells P (c :: a) = "," ++ c.2.show P ++ cells P a :=
  tailText_cons ..
theorem heads_ite {p : Prop} [Decidable p] (a b : Columns K) : heads (if p then a else b) = if p then heads a else heads b := by
  split_ifs <;> rfl
theorem cells_ite (P : Printer K) {p : Prop} [Decidable p] (a b : Columns K) :
    cells P (if p then a else b) = if p then cells P a else cells P b := by split_ifs <;> rfl

theorem enumerateHeader_eq (name : String) (n : Nat) (f : Nat → K) (p : Nat) : enumerateHeader name n = heads (group name n f p) := by
  rw [enumerateHeader, heads, group, tailText, List.map_map, List.map_map]
  refine congrArg String.join (List.map_congr_left fun i _ => ?_)
  show "," ++ name ++ "_" ++ toString i = "," ++ (name ++ "_" ++ toString i)
  simp only [String.append_assoc]

theorem enumerateHeader_three (name : String) (v : V3 K) (p : Nat) : enumerateHeader name 3 = heads (group3 name v p) := by
  rw [enumerateHeader_eq name 3 (fun _ => v 0) p]
  simp only [heads, group, group3]
  simp [List.range_succ, String.append_assoc, tailText]
  rfl

theorem enumerateHeader_four (name : String) (q : Quat K) : enumerateHeader name 4 = heads (group4 name q) := by
  rw [enumerateHeader_eq name 4 (fun _ => q.w) 6]
  simp only [heads, group, group4]
  simp [List.range_succ, String.append_assoc, tailText]
  rfl

theorem vecText_eq [Field K] (P : Printer K) (name : String) (v : Vec K) (p : Nat) :
    vecText P v p = cells P (group name v.size v.get p) := by
  rw [vecText, cells, group, tailText, List.map_map, List.map_map]
  rfl

theorem vecText_of [Field K] (P : Printer K) (name : String) (v : Vec K) (n : Nat) (f : Nat → K) (p : Nat) (hn : v.size = n)
    (hf : ∀ i, i < n → v.get i = f i) : vecText P v p = cells P (group name n f p) := by
  subst hn
  rw [vecText_eq P name, cells, cells, group, group, List.map_map, List.map_map]
  congr 1
  refine List.map_congr_left fun i hi => ?_
  show P.num p (v.get i) = P.num p (f i)
  rw [hf i (List.mem_range.1 hi)]

theorem v3Text_eq [Field K] (P : Printer K) (name : String) (v : V3 K) (p : Nat) : v3Text P v p = cells P (group3 name v p) := by
  rw [v3Text, vecText_eq P name]
  show cells P ((List.range 3).map _) = _
  rfl

theorem quatText_eq [Field K] (P : Printer K) (name : String) (q : Quat K) : quatText P q = cells P (group4 name q) := by
  simp only [quatText, group4, cells_cons, cells_nil, Cell.show, String.append_assoc, String.append_empty]

end EkfCal
