import Mathlib.Data.List.Forall2
import Mathlib.Data.List.Nodup
import Verif.Lemmas.Mat
import Verif.Model.Params

/-!
# Lemmas about the parameter server of the node
-/

namespace EkfCal
variable {K : Type} [Field K] [LinearOrder K]

theorem start_ok_bind {α β : Type} (a : α) (f : α → Start β) : ((Except.ok a : Start α) >>= f) = f a := rfl
theorem start_error_bind {α β : Type} (e : StartErr) (f : α → Start β) : ((Except.error e : Start α) >>= f) = .error e := rfl
theorem start_pure {α : Type} (a : α) : (pure a : Start α) = .ok a := rfl

theorem start_bind_iff {α β : Type} {x : Start α} {f : α → Start β} {b : β} :
    (x >>= f) = .ok b ↔ ∃ a, x = .ok a ∧ f a = .ok b := by
  cases x with
  | error e => simp [start_error_bind]
  | ok a => simp [start_ok_bind]

theorem start_map_iff {α β : Type} {x : Start α} {f : α → β} {b : β} :
    (f <$> x) = .ok b ↔ ∃ a, x = .ok a ∧ f a = b := by
  cases x with
  | error e => simp [Functor.map, Except.map]
  | ok a => simp [Functor.map, Except.map]

theorem lift_iff {α : Type} {x : Res α} {a : α} : Start.lift x = .ok a ↔ x = .ok a := by
  cases x <;> simp [Start.lift]

theorem ifNamed_rel {α β : Type} {R : α → β → Prop} {g : String → Start α} {h : String → Start β} {n : String} {a : Option α}
    (ha : ifNamed n g = .ok a) (hr : ∀ x, g n = .ok x → ∃ y, h n = .ok y ∧ R x y) :
    ∃ b, ifNamed n h = .ok b ∧ Option.Rel R a b := by
  unfold ifNamed at ha ⊢
  by_cases hn : n = ""
  · rw [if_pos hn] at ha ⊢
    cases ha
    exact ⟨none, rfl, .none⟩
  · rw [if_neg hn] at ha ⊢
    obtain ⟨x, hx, rfl⟩ := start_map_iff.1 ha
    obtain ⟨y, hy, hxy⟩ := hr x hx
    exact ⟨some y, by rw [hy]; rfl, .some hxy⟩

/-- The declared parameters of `D` have the values of the file, or else their defaults. -/
structure Serves (f : ParamFile K) (D : List (PKey × PVal K)) (s : Server K) : Prop where
  rows : List.Forall₂ (fun d x => x = (d.1, (f d.1).getD d.2) ∧ x.2.type = d.2.type) D s
  nodup : (s.map Prod.fst).Nodup

theorem serves_nil (f : ParamFile K) : Serves f [] [] := ⟨.nil, List.nodup_nil⟩

theorem serves_declare {f : ParamFile K} {D : List (PKey × PVal K)} {s s' : Server K} {d : PKey × PVal K}
    (h : Serves f D s) (hd : declare f s d = .ok s') : Serves f (D ++ [d]) s' := by
  unfold declare at hd
  split at hd
  · exact absurd hd (by simp)
  · rename_i hn
    have key : ∀ v : PVal K, v = (f d.1).getD d.2 → v.type = d.2.type → Serves f (D ++ [d]) (s ++ [(d.1, v)]) := by
      intro v hv ht
      refine ⟨List.rel_append h.rows (.cons ⟨by rw [hv], ht⟩ .nil), ?_⟩
      rw [List.map_append, List.nodup_append]
      refine ⟨h.nodup, by simp, ?_⟩
      intro a ha b hb hab
      simp only [List.map_cons, List.map_nil, List.mem_singleton] at hb
      exact hn (by rw [← hb, ← hab]; exact ha)
    cases hf : f d.1 with
    | none =>
      rw [hf] at hd
      cases hd
      exact key d.2 (by simp [hf]) rfl
    | some v =>
      rw [hf] at hd
      simp only at hd
      split at hd
      · rename_i ht
        cases hd
        exact key v (by simp [hf]) ht
      · exact absurd hd (by simp)

theorem serves_declareAll {f : ParamFile K} {ds : List (PKey × PVal K)} :
    ∀ {D : List (PKey × PVal K)} {s s' : Server K}, Serves f D s → declareAll f s ds = .ok s' → Serves f (D ++ ds) s' := by
  induction ds with
  | nil =>
    intro D s s' h hd
    cases hd
    simpa using h
  | cons d ds ih =>
    intro D s s' h hd
    simp only [declareAll, start_bind_iff] at hd
    obtain ⟨s1, h1, h2⟩ := hd
    have := ih (serves_declare h h1) h2
    simpa using this

/-- Declaring succeeds for new keys if every value in the file has the type of its default. -/
theorem declareAll_ok {f : ParamFile K} {ds : List (PKey × PVal K)} (ht : ∀ d ∈ ds, ∀ v, f d.1 = some v → v.type = d.2.type) :
    ∀ {s : Server K}, (s.map Prod.fst ++ ds.map Prod.fst).Nodup → ∃ s', declareAll f s ds = .ok s' := by
  induction ds with
  | nil => intro s _; exact ⟨s, rfl⟩
  | cons d ds ih =>
    intro s hn
    have hd : d.1 ∉ s.map Prod.fst := by
      intro hm
      rw [List.nodup_append] at hn
      exact hn.2.2 _ hm _ (by simp) rfl
    obtain ⟨v, hv⟩ : ∃ v, declare f s d = .ok (s ++ [(d.1, v)]) := by
      unfold declare
      rw [if_neg hd]
      cases hf : f d.1 with
      | none => exact ⟨d.2, rfl⟩
      | some v => exact ⟨v, by simp only; rw [if_pos (ht d (by simp) v hf)]⟩
    simp only [declareAll, hv, start_ok_bind]
    apply ih (fun d' hd' => ht d' (by simp [hd']))
    simpa using hn

theorem find_key {s : Server K} (hn : (s.map Prod.fst).Nodup) {k : PKey} {v : PVal K} (hm : (k, v) ∈ s) :
    s.find? (fun x => x.1 = k) = some (k, v) := by
  induction s with
  | nil => simp at hm
  | cons x s ih =>
    rw [List.map_cons, List.nodup_cons] at hn
    rcases List.mem_cons.1 hm with rfl | hm
    · simp
    · have : x.1 ≠ k := fun hx => hn.1 (by rw [hx]; exact List.mem_map_of_mem (f := Prod.fst) hm)
      rw [List.find?_cons_of_neg (by simpa using this)]
      exact ih hn.2 hm

theorem serves_find {f : ParamFile K} {D : List (PKey × PVal K)} {s : Server K} (h : Serves f D s) {k : PKey} {d : PVal K}
    (hm : (k, d) ∈ D) : s.find? (fun x => x.1 = k) = some (k, (f k).getD d) ∧ ((f k).getD d).type = d.type := by
  have : (k, (f k).getD d) ∈ s ∧ ((f k).getD d).type = d.type := by
    have hr := h.rows
    clear h
    induction hr with
    | nil => simp at hm
    | cons hx _ ih =>
      rcases List.mem_cons.1 hm with hd | hm
      · subst hd
        obtain ⟨h1, h2⟩ := hx
        rw [h1] at h2
        exact ⟨by rw [h1]; simp, h2⟩
      · exact ⟨List.mem_cons_of_mem _ (ih hm).1, (ih hm).2⟩
  exact ⟨find_key h.nodup this.1, this.2⟩

/-- What is not declared cannot be read. -/
theorem fetch_declared {f : ParamFile K} {D : List (PKey × PVal K)} {s : Server K} (h : Serves f D s) {α : Type} {k : PKey}
    {conv : PVal K → Option α} {a : α} (ha : fetch s k conv = .ok a) : k ∈ D.map Prod.fst := by
  unfold fetch at ha
  split at ha
  · exact absurd ha (by simp)
  · rename_i x hx
    have hk : x.1 = k := by simpa using List.find?_some hx
    have hm := List.mem_of_find?_eq_some hx
    have hr := h.rows
    clear h hx ha
    induction hr with
    | nil => simp at hm
    | cons hx _ ih =>
      rcases List.mem_cons.1 hm with rfl | hm
      · have : x.1 = _ := congrArg Prod.fst hx.1
        simp [← hk, this]
      · simp [ih hm]

section fetch
variable {f : ParamFile K} {D : List (PKey × PVal K)} {s : Server K} {k : PKey}

theorem fetch_num (h : Serves f D s) {d : K} (hm : (k, .num d) ∈ D) : fetch s k PVal.num? = .ok (yamlNum (f k) d) := by
  obtain ⟨h1, h2⟩ := serves_find h hm
  unfold fetch
  rw [h1]
  cases hf : f k with
  | none => rfl
  | some v => rw [hf] at h2; cases v <;> first | rfl | cases h2

theorem fetch_nums (h : Serves f D s) {d : List K} (hm : (k, .nums d) ∈ D) : fetch s k PVal.nums? = .ok (yamlNums (f k) d) := by
  obtain ⟨h1, h2⟩ := serves_find h hm
  unfold fetch
  rw [h1]
  cases hf : f k with
  | none => rfl
  | some v => rw [hf] at h2; cases v <;> first | rfl | cases h2

theorem fetch_bool (h : Serves f D s) {d : Bool} (hm : (k, .bool d) ∈ D) : fetch s k PVal.bool? = .ok (yamlBool (f k) d) := by
  obtain ⟨h1, h2⟩ := serves_find h hm
  unfold fetch
  rw [h1]
  cases hf : f k with
  | none => rfl
  | some v => rw [hf] at h2; cases v <;> first | rfl | cases h2

theorem fetch_str (h : Serves f D s) {d : String} (hm : (k, .str d) ∈ D) : fetch s k PVal.str? = .ok (yamlStr (f k) d) := by
  obtain ⟨h1, h2⟩ := serves_find h hm
  unfold fetch
  rw [h1]
  cases hf : f k with
  | none => rfl
  | some v => rw [hf] at h2; cases v <;> first | rfl | cases h2

theorem fetch_int (h : Serves f D s) {d : Int} (hm : (k, .int d) ∈ D) : fetch s k PVal.int? = .ok (yamlInt (f k) d) := by
  obtain ⟨h1, h2⟩ := serves_find h hm
  unfold fetch
  rw [h1]
  cases hf : f k with
  | none => rfl
  | some v => rw [hf] at h2; cases v <;> first | rfl | cases h2

theorem fetch_strs (h : Serves f D s) (hm : (k, .strs []) ∈ D) : fetch s k PVal.strs? = .ok (yamlList (f k)) := by
  obtain ⟨h1, h2⟩ := serves_find h hm
  unfold fetch
  rw [h1]
  cases hf : f k with
  | none => rfl
  | some v => rw [hf] at h2; cases v <;> first | rfl | cases h2

/-- With a value in the file, the default does not matter. -/
theorem nums_given (h : Serves f D s) {d : List K} (hm : (k, .nums d) ∈ D) (hg : (f k).isSome) (d' : List K) :
    yamlNums (f k) d = yamlNums (f k) d' := by
  obtain ⟨_, h2⟩ := serves_find h hm
  cases hf : f k with
  | none => simp [hf] at hg
  | some v => rw [hf] at h2; cases v <;> first | rfl | cases h2

theorem num_given (h : Serves f D s) {d : K} (hm : (k, .num d) ∈ D) (hg : (f k).isSome) (d' : K) :
    yamlNum (f k) d = yamlNum (f k) d' := by
  obtain ⟨_, h2⟩ := serves_find h hm
  cases hf : f k with
  | none => simp [hf] at hg
  | some v => rw [hf] at h2; cases v <;> first | rfl | cases h2

theorem int_given (h : Serves f D s) {d : Int} (hm : (k, .int d) ∈ D) (hg : (f k).isSome) (d' : Int) :
    yamlInt (f k) d = yamlInt (f k) d' ∧ ∃ i, f k = some (.int i) := by
  obtain ⟨_, h2⟩ := serves_find h hm
  cases hf : f k with
  | none => simp [hf] at hg
  | some v => rw [hf] at h2; cases v <;> first | exact ⟨rfl, _, rfl⟩ | cases h2

end fetch

/-- A count given in the file is read alike unless it does not fit. -/
theorem nat_same {v : Option (PVal K)} {d : Nat} (hd : d < 2 ^ 32) (hv : ∀ i, v = some (.int i) → 0 ≤ i ∧ i < 2 ^ 32) :
    toU32 (yamlInt v d) = yamlNat v d := by
  have hdef : toU32 (d : Int) = d := by unfold toU32; omega
  unfold yamlInt yamlNat
  split
  · rename_i i
    obtain ⟨h0, h1⟩ := hv i rfl
    rw [if_pos ⟨h0, h1⟩]
    unfold toU32
    omega
  · exact hdef

theorem int_same {v : Option (PVal K)} {d : Nat} (hv : ∀ i, v = some (.int i) → 0 ≤ i ∧ i < 2 ^ 32) :
    yamlInt v d = (yamlNat v d : Int) := by
  unfold yamlInt yamlNat
  split
  · rename_i i
    obtain ⟨h0, h1⟩ := hv i rfl
    rw [if_pos ⟨h0, h1⟩, Int.toNat_of_nonneg h0]
  · rfl

/-- The last part of a key. -/
def keyField : PKey → PField
  | .top _ => .topic
  | .of _ _ f => f

theorem mapM_nil' {α β : Type} (g : α → Start β) : ([] : List α).mapM g = .ok [] := rfl

/-- Two loaders that agree on every name agree on a list of names. -/
theorem mapM_rel {α β γ : Type} {R : β → γ → Prop} {g : α → Start β} {h : α → Start γ} :
    ∀ {l : List α} {bs : List β}, l.mapM g = .ok bs → (∀ a ∈ l, ∀ b, g a = .ok b → ∃ c, h a = .ok c ∧ R b c) →
      ∃ cs, l.mapM h = .ok cs ∧ List.Forall₂ R bs cs := by
  intro l
  induction l with
  | nil =>
    intro bs hb _
    cases hb
    exact ⟨[], rfl, .nil⟩
  | cons a l ih =>
    intro bs hb hr
    simp only [List.mapM_cons, start_bind_iff, start_pure, Except.ok.injEq] at hb
    obtain ⟨b, h1, bs', h2, rfl⟩ := hb
    obtain ⟨c, h3, h4⟩ := hr a (by simp) b h1
    obtain ⟨cs, h5, h6⟩ := ih h2 fun a' ha' => hr a' (by simp [ha'])
    exact ⟨c :: cs, by simp only [List.mapM_cons, h3, h5, start_ok_bind, start_pure], .cons h4 h6⟩

end EkfCal
