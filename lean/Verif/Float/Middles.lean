import Verif.Float.Lattice
/-!
# Decimals that are close to the middle of two floats

The middle of two neighbouring `f32` that are `2 ^ g` units apart is an odd multiple of `2 ^ g / 2` units (the unit is `2 ^ -149`).
A decimal `m * 10 ^ k` with at most as many digits as the distance justifies is a multiple of `10 ^ (power g - 60)`. There are
few of them closer to such a middle than `2 ^ -26` of the distance, apart from those which are equal to it.
-/

namespace Verif.Lattice

/-- The exponent, plus 60, of the smallest power of ten which is larger than 0.499 times the distance. -/
def power (g : Nat) : Nat := (g * 30103 + 1584463) / 100000

def stepNum (g : Nat) : Nat := 10 ^ power g * 2 ^ 149
def stepDen (g : Nat) : Nat := 10 ^ 60 * 2 ^ g

/-- The decimals close to a middle, for each distance. -/
def hits : Nat → List Nat
  | 13 => [12936821]
  | 16 => [8278143]
  | 17 => [16556286]
  | 27 => [23990983]
  | 42 => [7038531]
  | 43 => [14077062]
  | 100 => [25645849]
  | 106 => [13494369]
  | 110 => [10475821]
  | 195 => [4747909]
  | 196 => [9495818]
  | 203 => [9418377]
  | 206 => [17448701]
  | _ => []

/-- The largest number of steps. -/
def most (g : Nat) : Nat := (2 ^ 24 + 1) * stepDen g / stepNum g + 1

/-- `A * m % M` is between `L` and `R` for none of the numbers from `s` to `e` apart from the listed ones. -/
def onlyHits (A M L R : Nat) : Nat → List Nat → Nat → Bool
  | s, [], e => noHitFrom A M L R s (e + 1 - s)
  | s, h :: hs, e => decide (s ≤ h) && noHitFrom A M L R s (h - s) && onlyHits A M L R (h + 1) hs e

theorem onlyHits_sound {A M L R : Nat} (hLR : L ≤ R) (hR : R < M) : ∀ (s : Nat) (hs : List Nat) (e : Nat),
    onlyHits A M L R s hs e = true → ∀ x, s ≤ x → x ≤ e → L ≤ A * x % M → A * x % M ≤ R → x ∈ hs
  | s, [], e, h, x, h1, h2, h3, h4 => absurd ⟨h3, h4⟩ (noHitFrom_sound hLR hR h x h1 (by omega))
  | s, y :: hs, e, h, x, h1, h2, h3, h4 => by
    simp only [onlyHits, Bool.and_eq_true, decide_eq_true_eq] at h
    obtain ⟨⟨h5, h6⟩, h7⟩ := h
    rcases Nat.lt_trichotomy x y with hx | hx | hx
    · exact absurd ⟨h3, h4⟩ (noHitFrom_sound hLR hR h6 x h1 (by omega))
    · exact hx ▸ List.mem_cons_self
    · exact List.mem_cons_of_mem _ (onlyHits_sound hLR hR _ _ _ h7 x hx h2 h3 h4)

/-- The distance `g` is checked. -/
def checked (g : Nat) : Bool :=
  let P := stepNum g
  let Q := stepDen g
  let d := Q / 2 ^ 26
  decide (1000 * (10 ^ (power g - 1) * 2 ^ 149) ≤ 499 * Q) && decide (1 ≤ power g) &&
    (decide (Q / Nat.gcd P Q < 2 ^ 26) || onlyHits (2 * P) (2 * Q) (Q - d) (Q + d) 0 (hits g) (most g))

theorem all_checked : (List.range 254).all checked = true := by decide +kernel

theorem near_middle {g m : Nat} (hg : g < 254) (hm : m ≤ most g) (N : Nat)
    (h1 : 2 ^ 26 * (2 * m * stepNum g) ≤ 2 ^ 26 * ((2 * N + 1) * stepDen g) + stepDen g)
    (h2 : 2 ^ 26 * ((2 * N + 1) * stepDen g) ≤ 2 ^ 26 * (2 * m * stepNum g) + stepDen g) :
    m ∈ hits g ∨ 2 * m * stepNum g = (2 * N + 1) * stepDen g := by
  have h := List.all_eq_true.mp all_checked g (List.mem_range.mpr hg)
  simp only [checked, Bool.and_eq_true, Bool.or_eq_true, decide_eq_true_eq] at h
  obtain ⟨-, h⟩ := h
  have hQ : 0 < stepDen g := Nat.mul_pos (Nat.pow_pos (by decide)) (Nat.pow_pos (by decide))
  generalize stepNum g = P at *
  generalize stepDen g = Q at *
  have e3 : (2 * N + 1) * Q = 2 * Q * N + Q := by ring
  rcases h with h | h
  · right
    set c := Nat.gcd P Q with hc
    have hcpos : 0 < c := Nat.gcd_pos_of_pos_right _ hQ
    obtain ⟨P0, hP⟩ := Nat.gcd_dvd_left P Q
    obtain ⟨Q0, hQ0⟩ := Nat.gcd_dvd_right P Q
    rw [← hc] at hP hQ0
    rw [hQ0, Nat.mul_div_cancel_left _ hcpos] at h
    have f1 : 2 ^ 26 * (2 * m * P0) ≤ 2 ^ 26 * ((2 * N + 1) * Q0) + Q0 := by
      apply Nat.le_of_mul_le_mul_left (c := c) ?_ hcpos
      calc c * (2 ^ 26 * (2 * m * P0)) = 2 ^ 26 * (2 * m * (c * P0)) := by ring
        _ = 2 ^ 26 * (2 * m * P) := by rw [← hP]
        _ ≤ _ := h1
        _ = c * (2 ^ 26 * ((2 * N + 1) * Q0) + Q0) := by rw [hQ0]; ring
    have f2 : 2 ^ 26 * ((2 * N + 1) * Q0) ≤ 2 ^ 26 * (2 * m * P0) + Q0 := by
      apply Nat.le_of_mul_le_mul_left (c := c) ?_ hcpos
      calc c * (2 ^ 26 * ((2 * N + 1) * Q0)) = 2 ^ 26 * ((2 * N + 1) * (c * Q0)) := by ring
        _ = 2 ^ 26 * ((2 * N + 1) * Q) := by rw [← hQ0]
        _ ≤ _ := h2
        _ = 2 ^ 26 * (2 * m * (c * P0)) + c * Q0 := by rw [← hP, ← hQ0]
        _ = c * (2 ^ 26 * (2 * m * P0) + Q0) := by ring
    have f3 : 2 * m * P0 = (2 * N + 1) * Q0 := by
      generalize 2 * m * P0 = u at *
      generalize (2 * N + 1) * Q0 = v at *
      omega
    rw [hP, hQ0]
    calc 2 * m * (c * P0) = c * (2 * m * P0) := by ring
      _ = c * ((2 * N + 1) * Q0) := by rw [f3]
      _ = _ := by ring
  · left
    have hd : Q / 2 ^ 26 ≤ Q / 2 := Nat.div_le_div_left (by decide) (by decide)
    refine onlyHits_sound (by omega) (by omega) 0 _ _ h m (Nat.zero_le _) hm ?_ ?_
    all_goals
      have e4 : 2 * P * m = 2 * m * P := by ring
      rw [e4]
      generalize 2 * m * P = u at *
      rw [e3] at h1 h2
      have hN : 2 * Q * N + Q < 2 * Q * (N + 1) := by rw [Nat.mul_add]; omega
      have hr : u % (2 * Q) = u - 2 * Q * N := by
        have hu1 : 2 * Q * N ≤ u := by generalize 2 * Q * N = w at *; omega
        have hu2 : u < 2 * Q * N + 2 * Q := by generalize 2 * Q * N = w at *; omega
        conv_lhs => rw [show u = (u - 2 * Q * N) + 2 * Q * N by omega]
        rw [Nat.add_mul_mod_self_left, Nat.mod_eq_of_lt (by omega)]
      rw [hr]
      generalize 2 * Q * N = w at *
      omega

end Verif.Lattice
