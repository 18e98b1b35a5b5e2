import Verif.Spec.Float

/-!
# Comparing hours as floating-point numbers
-/

namespace Fasttld
open Spec

theorem isFloat64_int {m : Int} (h : m.natAbs < 2 ^ 53) : IsFloat64 (m : Rat) := ⟨m, 0, h, .inl ⟨by decide, by simp⟩⟩

theorem round_float {round : Rat → Rat} (hr : IsRounding round) {x : Rat} (h : IsFloat64 x) : round x = x :=
  Rat.le_antisymm ((hr.nearest x x h).1 (Rat.le_refl)) ((hr.nearest x x h).2 (Rat.le_refl))

theorem hours_iff {round : Rat → Rat} (hr : IsRounding round) (d : Int) :
    72 < hours round (saturate d) ↔ 259200000000000 < d := by
  have h72 : IsFloat64 (72 : Rat) := isFloat64_int (m := 72) (by decide)
  have hsat : 259200000000000 < saturate d ↔ 259200000000000 < d := by
    unfold saturate
    split
    · omega
    · split <;> omega
  rw [← hsat]
  have hb : -2 ^ 63 ≤ saturate d ∧ saturate d < 2 ^ 63 := by
    unfold saturate
    split
    · omega
    · split <;> omega
  generalize saturate d = s at hb
  have e := Int.mul_tdiv_add_tmod s 3600000000000
  have m1 : s.tmod 3600000000000 < 3600000000000 := Int.tmod_lt_of_pos s (by decide)
  have m2 : -3600000000000 < s.tmod 3600000000000 := Int.lt_tmod_of_pos s (by decide)
  have m3 : 0 ≤ s → 0 ≤ s.tmod 3600000000000 := fun h => Int.tmod_nonneg _ h
  unfold hours
  generalize s.tdiv 3600000000000 = a at *
  generalize s.tmod 3600000000000 = b at *
  rw [round_float hr (isFloat64_int (m := a) (by omega)), round_float hr (isFloat64_int (m := b) (by omega))]
  constructor
  · intro h
    refine Classical.byContradiction fun hs => ?_
    have hs : s ≤ 259200000000000 := by omega
    have h1 : (b : Rat) / 3600000000000 ≤ 1 := by
      have : (b : Rat) ≤ (3600000000000 : Int) := Rat.intCast_le_intCast.2 (by omega)
      grind
    have h0 : (b : Rat) / 3600000000000 ≤ 0 ∨ a ≤ 71 := by
      by_cases hb : b ≤ 0
      · left
        have : (b : Rat) ≤ (0 : Int) := Rat.intCast_le_intCast.2 hb
        grind
      · right; omega
    have f1 := (hr.nearest _ 1 (isFloat64_int (m := 1) (by decide))).1 h1
    have f0 := (hr.nearest ((b : Rat) / 3600000000000) 0 (isFloat64_int (m := 0) (by decide))).1
    have fs : (a : Rat) + round ((b : Rat) / 3600000000000) ≤ 72 := by
      rcases h0 with h0 | h0
      · have : (a : Rat) ≤ (72 : Int) := Rat.intCast_le_intCast.2 (by omega)
        have := f0 h0
        grind
      · have : (a : Rat) ≤ (71 : Int) := Rat.intCast_le_intCast.2 h0
        grind
    have := (hr.nearest _ 72 h72).1 fs
    grind
  · intro h
    have hb0 := m3 (by omega)
    have ha : 72 ≤ a := by omega
    have hq : IsFloat64 ((1 : Int) / 2 ^ 42 : Rat) := ⟨1, 42, by decide, .inr ⟨by decide, rfl⟩⟩
    have hq' : IsFloat64 ((72 * 2 ^ 42 + 1 : Int) / 2 ^ 42 : Rat) := ⟨72 * 2 ^ 42 + 1, 42, by decide, .inr ⟨by decide, rfl⟩⟩
    have e1 : ((1 : Int) / 2 ^ 42 : Rat) = 1 / 4398046511104 := by grind
    have e2 : ((72 * 2 ^ 42 + 1 : Int) / 2 ^ 42 : Rat) = 72 + 1 / 4398046511104 := by grind
    rw [e1] at hq
    rw [e2] at hq'
    have fs : (72 : Rat) + 1 / 4398046511104 ≤ (a : Rat) + round ((b : Rat) / 3600000000000) := by
      by_cases hb : b = 0
      · have h73 : (73 : Int) ≤ (a : Rat) := Rat.intCast_le_intCast.2 (by omega)
        have h0 : (0 : Rat) ≤ (b : Rat) / 3600000000000 := by
          subst hb; grind
        have := (hr.nearest _ 0 (isFloat64_int (m := 0) (by decide))).2 h0
        grind
      · have h72 : (72 : Int) ≤ (a : Rat) := Rat.intCast_le_intCast.2 ha
        have h1 : (1 : Int) ≤ (b : Rat) := Rat.intCast_le_intCast.2 (by omega)
        have := (hr.nearest ((b : Rat) / 3600000000000) _ hq).2 (by grind)
        grind
    have := (hr.nearest _ _ hq').2 fs
    grind

/-- A member next to `x`. -/
theorem nearest {L : List Rat} (hne : L ≠ []) (x : Rat) :
    ∃ r ∈ L, ∀ y ∈ L, (x ≤ y → r ≤ y) ∧ (y ≤ x → y ≤ r) := by
  induction L with
  | nil => exact absurd rfl hne
  | cons z L ih =>
    by_cases hL : L = []
    · subst hL
      refine ⟨z, by simp, fun y hy => ?_⟩
      simp only [List.mem_singleton] at hy
      subst hy
      exact ⟨fun _ => Rat.le_refl, fun _ => Rat.le_refl⟩
    · obtain ⟨r, hr, h⟩ := ih hL
      by_cases hz : (x ≤ z ∧ z ≤ r) ∨ (r ≤ z ∧ z ≤ x)
      · refine ⟨z, by simp, fun y hy => ?_⟩
        rcases List.mem_cons.1 hy with rfl | hy
        · exact ⟨fun _ => Rat.le_refl, fun _ => Rat.le_refl⟩
        · have := h y hy
          grind
      · refine ⟨r, by simp [hr], fun y hy => ?_⟩
        rcases List.mem_cons.1 hy with rfl | hy
        · grind
        · exact h y hy

/-- All numbers of the form in `IsFloat64`. -/
def floats (m e e' : Nat) : List Rat :=
  (List.range m).flatMap fun i : Nat =>
    ((List.range e).flatMap fun j => [((i : Int) : Rat) * 2 ^ j, ((-(i : Int) : Int) : Rat) * 2 ^ j]) ++
    ((List.range e').flatMap fun j => [((i : Int) : Rat) / 2 ^ j, ((-(i : Int) : Int) : Rat) / 2 ^ j])

theorem mem_floats {m e e' : Nat} {x : Rat} :
    x ∈ floats m e e' ↔ ∃ (i : Int) (j : Nat), i.natAbs < m ∧ ((j < e ∧ x = i * 2 ^ j) ∨ (j < e' ∧ x = i / 2 ^ j)) := by
  simp only [floats, List.mem_flatMap, List.mem_append, List.mem_range, List.mem_cons, List.not_mem_nil, or_false]
  constructor
  · rintro ⟨i, hi, ⟨j, hj, rfl | rfl⟩ | ⟨j, hj, rfl | rfl⟩⟩
    · exact ⟨i, j, by omega, .inl ⟨hj, rfl⟩⟩
    · exact ⟨-i, j, by omega, .inl ⟨hj, rfl⟩⟩
    · exact ⟨i, j, by omega, .inr ⟨hj, rfl⟩⟩
    · exact ⟨-i, j, by omega, .inr ⟨hj, rfl⟩⟩
  · rintro ⟨i, j, hi, h⟩
    refine ⟨i.natAbs, hi, ?_⟩
    rcases Int.natAbs_eq i with hi | hi <;> rw [hi] at h <;> rcases h with ⟨hj, rfl⟩ | ⟨hj, rfl⟩
    · exact .inl ⟨j, hj, .inl (by simp)⟩
    · exact .inr ⟨j, hj, .inl (by simp)⟩
    · exact .inl ⟨j, hj, .inr (by simp)⟩
    · exact .inr ⟨j, hj, .inr (by simp)⟩

theorem isFloat64_mem {m e e' : Nat} (hm : m = 2 ^ 53) (he : e = 972) (he' : e' = 1075) {x : Rat} :
    IsFloat64 x ↔ x ∈ floats m e e' := by
  rw [mem_floats, hm, he, he']
  unfold IsFloat64
  constructor <;> rintro ⟨i, j, h1, ⟨h2, h3⟩ | ⟨h2, h3⟩⟩
  · exact ⟨i, j, h1, .inl ⟨by omega, h3⟩⟩
  · exact ⟨i, j, h1, .inr ⟨by omega, h3⟩⟩
  · exact ⟨i, j, h1, .inl ⟨by omega, h3⟩⟩
  · exact ⟨i, j, h1, .inr ⟨by omega, h3⟩⟩

theorem rounding_exists : ∃ round, IsRounding round := by
  obtain ⟨m, hm⟩ : ∃ m : Nat, m = 2 ^ 53 := ⟨_, rfl⟩
  obtain ⟨e, he⟩ : ∃ e : Nat, e = 972 := ⟨_, rfl⟩
  obtain ⟨e', he'⟩ : ∃ e : Nat, e = 1075 := ⟨_, rfl⟩
  have hne : floats m e e' ≠ [] := by
    intro h
    have : (0 : Rat) ∈ floats m e e' := (isFloat64_mem hm he he').1 (isFloat64_int (m := 0) (by decide))
    rw [h] at this
    simp at this
  refine ⟨fun x => Classical.choose (nearest hne x), fun x => ?_, fun x y hy => ?_⟩
  · exact (isFloat64_mem hm he he').2 (Classical.choose_spec (nearest hne x)).1
  · exact (Classical.choose_spec (nearest hne x)).2 y ((isFloat64_mem hm he he').1 hy)

end Fasttld
