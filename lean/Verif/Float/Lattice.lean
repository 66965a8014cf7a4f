import Mathlib.Data.Nat.Basic
import Mathlib.Tactic.Ring
/-!
# Multiples of a number that are close to a given one, modulo another
-/

namespace Verif.Lattice

/-- A lower bound for the numbers `x` such that `A * x % M` is between `L` and `R`; `none` if there are none. Euclid's algorithm: where
no multiple of `A` is between `L` and `R`, one between `y * M + L` and `y * M + R` exists only if `y * M % A` is in the reflected
interval. -/
def firstHit : Nat → Nat → Nat → Nat → Nat → Option Nat
  | 0, _, _, _, _ => some 0
  | fuel + 1, A, M, L, R =>
    if A = 0 then none
    else
      let c := (L + A - 1) / A
      if c * A ≤ R then some c
      else (firstHit fuel (M % A) A (A - R % A) (A - L % A)).map fun y => (L + M * y + A - 1) / A

theorem firstHit_sound : ∀ (fuel A M L R : Nat), A < M → 0 < L → L ≤ R → R < M →
    ∀ x, L ≤ A * x % M → A * x % M ≤ R → ∃ f, firstHit fuel A M L R = some f ∧ f ≤ x
  | 0, _, _, _, _, _, _, _, _, x, _, _ => ⟨0, rfl, Nat.zero_le x⟩
  | fuel + 1, A, M, L, R, hA, hL, hLR, hR, x, h1, h2 => by
    rw [firstHit]
    split
    · rename_i h0
      subst h0
      simp at h1
      omega
    rename_i h0
    have hApos : 0 < A := Nat.pos_of_ne_zero h0
    have hdiv := Nat.div_add_mod (A * x) M
    have hc1 : L ≤ (L + A - 1) / A * A := by
      have := Nat.div_add_mod (L + A - 1) A
      have := Nat.mod_lt (L + A - 1) hApos
      have e : (L + A - 1) / A * A = A * ((L + A - 1) / A) := Nat.mul_comm _ _
      omega
    have hc2 : ∀ z, z < (L + A - 1) / A → A * z < L := by
      intro z hz
      have h3 : (z + 1) * A ≤ (L + A - 1) / A * A := Nat.mul_le_mul_right _ hz
      have h4 : (L + A - 1) / A * A ≤ L + A - 1 := Nat.div_mul_le_self _ _
      have h5 : (z + 1) * A = A * z + A := by ring
      omega
    simp only
    split
    · refine ⟨_, rfl, ?_⟩
      rcases Nat.lt_or_ge x ((L + A - 1) / A) with hx | hx
      · have := hc2 x hx
        rw [Nat.mod_eq_of_lt (by omega)] at h1
        omega
      · exact hx
    · rename_i hc
      -- no multiple of `A` is between `L` and `R`
      have hno : ∀ z, ¬ (L ≤ A * z ∧ A * z ≤ R) := by
        rintro z ⟨hz1, hz2⟩
        rcases Nat.lt_or_ge z ((L + A - 1) / A) with hz | hz
        · have := hc2 z hz; omega
        · have h3 : (L + A - 1) / A * A ≤ z * A := Nat.mul_le_mul_right _ hz
          have h4 : z * A = A * z := Nat.mul_comm _ _
          omega
      have eL := Nat.div_add_mod L A
      have eR := Nat.div_add_mod R A
      have lL := Nat.mod_lt L hApos
      have lR := Nat.mod_lt R hApos
      have hLA : 0 < L % A := by
        rcases Nat.eq_zero_or_pos (L % A) with h0 | h0
        · exact absurd ⟨by omega, by omega⟩ (hno (L / A))
        · exact h0
      have hq : L / A = R / A := by
        have hle : L / A ≤ R / A := Nat.div_le_div_right hLR
        rcases Nat.lt_or_ge (L / A) (R / A) with hlt | hge
        · have h3 : A * (L / A + 1) ≤ A * (R / A) := Nat.mul_le_mul_left _ hlt
          have h4 : A * (L / A + 1) = A * (L / A) + A := by ring
          exact absurd ⟨by omega, by omega⟩ (hno (R / A))
        · omega
      rw [hq] at eL
      set y := A * x / M with hy
      suffices hs : A - R % A ≤ M % A * y % A ∧ M % A * y % A ≤ A - L % A by
        obtain ⟨f, hf, hle⟩ := firstHit_sound fuel (M % A) A (A - R % A) (A - L % A) (Nat.mod_lt _ hApos) (by omega) (by omega)
          (by omega) y hs.1 hs.2
        refine ⟨_, by rw [hf]; rfl, ?_⟩
        have h3 : M * f ≤ M * y := Nat.mul_le_mul_left _ hle
        apply Nat.le_of_lt_succ
        rw [Nat.div_lt_iff_lt_mul hApos, Nat.succ_mul, Nat.mul_comm x A]
        omega
      -- `M * y` is less than a multiple of `A` by something between `L` and `R`
      set r := A * x % M with hr
      have er := Nat.div_add_mod r A
      have lr := Nat.mod_lt r hApos
      have hqr : r / A = R / A := by
        have h3 : r / A ≤ R / A := Nat.div_le_div_right h2
        have h4 : L / A ≤ r / A := Nat.div_le_div_right h1
        omega
      rw [hqr] at er
      have hrA : 0 < r % A := by omega
      have key : M * y % A = A - r % A := by
        have e1 : M * y + r % A + A * (R / A) = A * x := by omega
        have h5 : (M * y + r % A) % A = 0 := by
          have : (M * y + r % A + A * (R / A)) % A = (M * y + r % A) % A := Nat.add_mul_mod_self_left _ _ _
          rw [← this, e1]
          exact Nat.mul_mod_right _ _
        have e2 := Nat.div_add_mod (M * y) A
        have l2 := Nat.mod_lt (M * y) hApos
        have h6 : (M * y % A + r % A) % A = 0 := by
          rw [← h5, Nat.add_mod (M * y), Nat.mod_mod]
        rcases Nat.lt_or_ge (M * y % A + r % A) A with h7 | h7
        · rw [Nat.mod_eq_of_lt h7] at h6; omega
        · rw [Nat.mod_eq_sub_mod h7, Nat.mod_eq_of_lt (by omega)] at h6
          omega
      have e3 : M % A * y % A = M * y % A := by
        rw [Nat.mod_mul_mod]
      rw [e3, key]
      omega

/-- The same for numbers from `s` on. -/
def noHitFrom (A M L R s X : Nat) : Bool :=
  let o := A * s % M
  let L' := (L + M - o) % M
  let R' := (R + M - o) % M
  decide (0 < L' ∧ L' ≤ R') && (match firstHit 400 (A % M) M L' R' with | none => true | some f => decide (X ≤ f))

theorem noHitFrom_sound {A M L R s X : Nat} (hLR : L ≤ R) (hR : R < M) (h : noHitFrom A M L R s X = true) (x : Nat)
    (h1 : s ≤ x) (h2 : x < s + X) : ¬ (L ≤ A * x % M ∧ A * x % M ≤ R) := by
  have hM : 0 < M := by omega
  simp only [noHitFrom, Bool.and_eq_true, decide_eq_true_eq] at h
  obtain ⟨⟨h3, h4⟩, h5⟩ := h
  rintro ⟨h7, h8⟩
  suffices hs : _ ∧ _ by
    obtain ⟨f, hf, hle⟩ := firstHit_sound 400 (A % M) M _ _ (Nat.mod_lt A hM) h3 h4 (Nat.mod_lt _ hM) (x - s) hs.1 hs.2
    rw [hf] at h5
    have := of_decide_eq_true h5
    omega
  have e1 : A % M * (x - s) % M = (A * (x - s)) % M := by rw [Nat.mod_mul_mod]
  rw [e1]
  have lo := Nat.mod_lt (A * s) hM
  have e2 : A * x = A * s + A * (x - s) := by rw [← Nat.mul_add]; congr 1; omega
  have e3 : A * x % M = (A * s % M + A * (x - s) % M) % M := by rw [e2, Nat.add_mod]
  have l3 := Nat.mod_lt (A * (x - s)) hM
  set o := A * s % M
  set t := A * (x - s) % M
  have red : ∀ z, z < 2 * M → (z < M ∧ z % M = z) ∨ (M ≤ z ∧ z % M = z - M) := by
    intro z hz
    rcases Nat.lt_or_ge z M with h | h
    · exact .inl ⟨h, Nat.mod_eq_of_lt h⟩
    · exact .inr ⟨h, by rw [Nat.mod_eq_sub_mod h, Nat.mod_eq_of_lt (by omega)]⟩
  rw [e3] at h7 h8
  rcases red (o + t) (by omega) with ⟨a1, a2⟩ | ⟨a1, a2⟩ <;> rcases red (L + M - o) (by omega) with ⟨b1, b2⟩ | ⟨b1, b2⟩ <;>
    rcases red (R + M - o) (by omega) with ⟨c1, c2⟩ | ⟨c1, c2⟩ <;> rw [a2] at h7 h8 <;> rw [b2] at h3 h4 ⊢ <;> rw [c2] at h4 ⊢ <;> omega

end Verif.Lattice
