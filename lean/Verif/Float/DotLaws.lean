import Verif.Data.Glam
import Verif.Float.ValueSpec
import Mathlib.Algebra.BigOperators.Fin
/-!
# The rounding error of a sum of four products
-/

namespace Verif.Glam
open Ieee

/-- One more summand: the relative part of the error grows by a factor, the absolute part by that of the summand. -/
theorem step {s S C p q c s' u t α β : ℚ} (hu : 0 ≤ u) (hα : u ≤ α) (hS : |S| ≤ C) (hq : |q| ≤ c)
    (hs : |s - S| ≤ α * C + β) (hp : |p - q| ≤ c * u + t) (h : |s' - (s + p)| ≤ |s + p| * u) :
    |s + p| ≤ (1 + α) * (C + c) + (β + t) ∧
    |s' - (S + q)| ≤ ((1 + α) * (1 + u) - 1) * (C + c) + (1 + u) * (β + t) := by
  have hc : 0 ≤ c := le_trans (abs_nonneg _) hq
  have hC : 0 ≤ C := le_trans (abs_nonneg _) hS
  have h1 : |s + p| ≤ (1 + α) * (C + c) + (β + t) := by
    have : s + p = (s - S) + (p - q) + (S + q) := by ring
    rw [this]
    have h2 := abs_add_three (s - S) (p - q) (S + q)
    have h3 := abs_add_le S q
    have h4 : c * u ≤ c * α := by gcongr
    nlinarith
  refine ⟨h1, ?_⟩
  have : s' - (S + q) = (s' - (s + p)) + (s - S) + (p - q) := by ring
  rw [this]
  have h2 := abs_add_three (s' - (s + p)) (s - S) (p - q)
  have h3 : |s + p| * u ≤ ((1 + α) * (C + c) + (β + t)) * u := by gcongr
  have h4 : c * u ≤ c * α := by gcongr
  nlinarith

theorem limit_gt : (2 : ℚ) ^ 127 * (1 + 1 / 2 ^ 10) ≤ single.limit := by
  have h : maxFinite < single.limit := maxFinite_lt_limit
  refine le_trans ?_ (le_of_lt h)
  unfold maxFinite
  norm_num

/-- The four products of floats, rounded, and added from the first to the last with rounding. -/
theorem sum_near (x y : Fin 4 → F32) (hx : ∀ i, Finite (x i)) (hy : ∀ i, Finite (y i))
    (hb : ∑ i, |value (x i) * value (y i)| ≤ 2 ^ 127) :
    Finite (add (add (add (mul (x 0) (y 0)) (mul (x 1) (y 1))) (mul (x 2) (y 2))) (mul (x 3) (y 3))) ∧
    |value (add (add (add (mul (x 0) (y 0)) (mul (x 1) (y 1))) (mul (x 2) (y 2))) (mul (x 3) (y 3))) -
        ∑ i, value (x i) * value (y i)| ≤
      (∑ i, |value (x i) * value (y i)|) * (5 / 2 ^ 24) + 1 / 2 ^ 147 := by
  have hprod : ∀ i, Finite (mul (x i) (y i)) ∧
      |value (mul (x i) (y i)) - value (x i) * value (y i)| ≤ |value (x i) * value (y i)| * (1 / 2 ^ 24) + 1 / 2 ^ 150 := by
    intro i
    have hi : |value (x i) * value (y i)| ≤ 2 ^ 127 :=
      le_trans (Finset.single_le_sum (f := fun i => |value (x i) * value (y i)|) (fun _ _ => abs_nonneg _) (Finset.mem_univ i)) hb
    have hl : |(ofBits (x i)).val * (ofBits (y i)).val| < single.limit := by
      rw [← value_eq, ← value_eq]
      have := limit_gt
      norm_num at this hi ⊢
      linarith
    have h := Fl.mul_error ((finite_iff _).mp (hx i)) ((finite_iff _).mp (hy i)) hl single_eb
    unfold mul
    rw [finite_iff, value_eq (toBits _), h.1.ofBits_toBits]
    rw [← value_eq (x i), ← value_eq (y i), single_eps, single_tiny] at h
    refine ⟨h.1, le_trans h.2 ?_⟩
    apply max_le
    · have : (0 : ℚ) ≤ 1 / 2 ^ 150 := by positivity
      linarith
    · have : (0 : ℚ) ≤ |value (x i) * value (y i)| * (1 / 2 ^ 24) := by positivity
      linarith
  have hadd : ∀ {a b : F32} {B : ℚ}, Finite a → Finite b → |value a + value b| ≤ B → B ≤ 2 ^ 127 * (1 + 1 / 2 ^ 11) →
      Finite (add a b) ∧ |value (add a b) - (value a + value b)| ≤ |value a + value b| * (1 / 2 ^ 24) := by
    intro a b B ha hb' hB hB'
    have hl : |(ofBits a).val + (ofBits b).val| < single.limit := by
      rw [← value_eq, ← value_eq]
      have := limit_gt
      norm_num at this hB' ⊢
      linarith
    have h := Fl.add_error ((finite_iff _).mp ha) ((finite_iff _).mp hb') hl single_eb
    unfold add
    rw [finite_iff, value_eq (toBits _), h.1.ofBits_toBits, value_eq a, value_eq b]
    exact ⟨h.1, by rw [← single_eps]; exact h.2⟩
  simp only [Fin.sum_univ_four] at hb ⊢
  generalize hq0 : value (x 0) * value (y 0) = q0 at *
  generalize hq1 : value (x 1) * value (y 1) = q1 at *
  generalize hq2 : value (x 2) * value (y 2) = q2 at *
  generalize hq3 : value (x 3) * value (y 3) = q3 at *
  have p0 := hprod 0
  have p1 := hprod 1
  have p2 := hprod 2
  have p3 := hprod 3
  rw [hq0] at p0
  rw [hq1] at p1
  rw [hq2] at p2
  rw [hq3] at p3
  clear hprod
  have a0 := abs_nonneg q0
  have a1 := abs_nonneg q1
  have a2 := abs_nonneg q2
  have a3 := abs_nonneg q3
  have u0 : (0 : ℚ) ≤ 1 / 2 ^ 24 := by positivity
  have t0 : (0 : ℚ) ≤ 1 / 2 ^ 150 := by positivity
  have m0 : |value (mul (x 0) (y 0)) - q0| ≤ 1 / 2 ^ 24 * |q0| + 1 / 2 ^ 150 := by rw [mul_comm (1 / 2 ^ 24 : ℚ)]; exact p0.2
  -- the first sum
  have b1 := (step (s' := value (mul (x 0) (y 0)) + value (mul (x 1) (y 1))) u0 (le_refl _) (le_refl |q0|) (le_refl |q1|) m0
    p1.2 (by rw [sub_self, abs_zero]; positivity)).1
  have s1 := hadd p0.1 p1.1 b1 (by norm_num at hb ⊢; linarith)
  have e1 := (step u0 (le_refl _) (le_refl |q0|) (le_refl |q1|) m0 p1.2 s1.2).2
  clear b1 m0
  -- the second sum
  have r1 := abs_add_le q0 q1
  have b2 := (step (s' := value (add (mul (x 0) (y 0)) (mul (x 1) (y 1))) + value (mul (x 2) (y 2))) u0 (by norm_num) r1
    (le_refl |q2|) e1 p2.2 (by rw [sub_self, abs_zero]; positivity)).1
  have s2 := hadd s1.1 p2.1 b2 (by norm_num at hb ⊢; linarith)
  have e2 := (step u0 (by norm_num) r1 (le_refl |q2|) e1 p2.2 s2.2).2
  clear b2 e1
  -- the third sum
  have r2 : |q0 + q1 + q2| ≤ |q0| + |q1| + |q2| := abs_add_three q0 q1 q2
  have b3 := (step (s' := value (add (add (mul (x 0) (y 0)) (mul (x 1) (y 1))) (mul (x 2) (y 2))) + value (mul (x 3) (y 3))) u0
    (by norm_num) r2 (le_refl |q3|) e2 p3.2 (by rw [sub_self, abs_zero]; positivity)).1
  have s3 := hadd s2.1 p3.1 b3 (by norm_num at hb ⊢; linarith)
  have e3 := (step u0 (by norm_num) r2 (le_refl |q3|) e2 p3.2 s3.2).2
  refine ⟨s3.1, le_trans e3 ?_⟩
  have hc : 0 ≤ |q0| + |q1| + |q2| + |q3| := by positivity
  generalize |q0| + |q1| + |q2| + |q3| = c at *
  clear e3 s3 b3 r2 e2 s2 r1 s1 p0 p1 p2 p3 hadd hb
  norm_num
  linarith

end Verif.Glam
