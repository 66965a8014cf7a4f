import Verif.Props.SavedFields
import Verif.Props.MeshData
import Verif.Float.ExactDot
/-!
C97: accuracy of world transforms and of transformed points.
-/

namespace Verif.Props
open Verif SkelData

/-! ## Matrices of floats -/

/-- The float in row `r` and column `c`; the array has columns. -/
def entry (m : Matrix4x4) (r c : Fin 4) : F32 := (m.toColsArray[c])[r]

def AllFinite (m : Matrix4x4) : Prop := ∀ r c, Finite (entry m r c)

/-- The matrix of numbers a matrix of floats stands for. -/
def numbers (m : Matrix4x4) : M4 := .of fun r c => value (entry m r c)

/-- Their absolute values. -/
def magnitudes (m : Matrix4x4) : M4 := .of fun r c => |value (entry m r c)|

/-- What is assumed about the product of matrices of `glam`: unless numbers of 2^127 or more come up, each number of the
product is finite and off by at most 5 / 2^24 of the absolute values that are added up, and 1 / 2^147 more (for products which
are too small for a float). Four products and three sums with rounding to nearest, in any order, do this. -/
def AccurateProduct (mul : Matrix4x4 → Matrix4x4 → Matrix4x4) : Prop :=
  ∀ a b, AllFinite a → AllFinite b → ∀ r c, (magnitudes a * magnitudes b) r c ≤ 2 ^ 127 →
    Finite (entry (mul a b) r c) ∧
    |value (entry (mul a b) r c) - (numbers a * numbers b) r c| ≤ (magnitudes a * magnitudes b) r c * (5 / 2 ^ 24) + 1 / 2 ^ 147

/-- The same for a matrix times a vector. -/
def AccurateVector (mulVec : Matrix4x4 → Vector F32 4 → Vector F32 4) : Prop :=
  ∀ m v, AllFinite m → (∀ k : Fin 4, Finite v[k]) → ∀ r : Fin 4, ∑ k : Fin 4, |value (entry m r k) * value v[k]| ≤ 2 ^ 127 →
    Finite (mulVec m v)[r] ∧
    |value (mulVec m v)[r] - ∑ k : Fin 4, value (entry m r k) * value v[k]| ≤
      (∑ k : Fin 4, |value (entry m r k) * value v[k]|) * (5 / 2 ^ 24) + 1 / 2 ^ 147

theorem mulVec_get (m : Matrix4x4) (v : Vector F32 4) (r : Fin 4) : (Glam.mulVec m v)[r] = Glam.dot m v r := by
  match r with
  | 0 => rfl
  | 1 => rfl
  | 2 => rfl
  | 3 => rfl

theorem mulMat_entry (a b : Matrix4x4) (r c : Fin 4) : entry (Glam.mulMat a b) r c = Glam.dot a (b.toColsArray[c]) r := by
  match r, c with
  | 0, 0 => rfl
  | 1, 0 => rfl
  | 2, 0 => rfl
  | 3, 0 => rfl
  | 0, 1 => rfl
  | 1, 1 => rfl
  | 2, 1 => rfl
  | 3, 1 => rfl
  | 0, 2 => rfl
  | 1, 2 => rfl
  | 2, 2 => rfl
  | 3, 2 => rfl
  | 0, 3 => rfl
  | 1, 3 => rfl
  | 2, 3 => rfl
  | 3, 3 => rfl

/-- Products computed with IEEE 754 arithmetic are accurate. -/
theorem C97_glam_vector : AccurateVector Glam.mulVec := by
  intro m v hm hv r hb
  rw [mulVec_get]
  exact Glam.sum_near (fun k => entry m r k) (fun k => v[k]) (hm r) hv hb

theorem C97_glam : AccurateProduct Glam.mulMat := by
  intro a b ha hb r c hs
  rw [mulMat_entry]
  have e1 : (magnitudes a * magnitudes b) r c = ∑ k, |value (entry a r k) * value (entry b k c)| := by
    rw [Matrix.mul_apply]
    simp only [magnitudes, abs_mul, Matrix.of_apply]
  have e2 : (numbers a * numbers b) r c = ∑ k, value (entry a r k) * value (entry b k c) := by
    rw [Matrix.mul_apply]
    rfl
  rw [e1] at hs ⊢
  rw [e2]
  exact Glam.sum_near (fun k => entry a r k) (fun k => entry b k c) (ha r) (fun k => hb k c) hs

/-! ## World transforms -/

/-- The exact product of the transforms, from the last ancestor down to the bone. -/
def exactWorld (ancestors : List BoneData) (bone : BoneData) : M4 :=
  (ancestors.reverse.map fun b => numbers b.transform).prod * numbers bone.transform

/-- The product of the absolute values of the transforms, where 2^-125 is added to each number after each product. It tells how
large the numbers are which the world transform is made of. The ancestors come from the parent upwards. -/
def reach (start : M4) : List BoneData → M4
  | [] => start
  | p :: ps => reach (.of fun r c => (magnitudes p.transform * start) r c + 1 / 2 ^ 125) ps

/-- The world transform `m` of a bone with these ancestors is finite and off by at most n / 2^21 of `reach`, where `n` is the
number of ancestors. -/
def AccurateWorld (ancestors : List BoneData) (bone : BoneData) (m : Matrix4x4) : Prop :=
  AllFinite m ∧ ∀ r c, |value (entry m r c) - exactWorld ancestors bone r c| ≤
    ancestors.length / 2 ^ 21 * reach (magnitudes bone.transform) ancestors r c

/-- The transforms are finite, there are at most 2^20 ancestors and `reach` is at most 2^126 for the bone and each part of the
chain of its ancestors. -/
structure ModerateChain (ancestors : List BoneData) (bone : BoneData) : Prop where
  finite : AllFinite bone.transform
  finites : ∀ b ∈ ancestors, AllFinite b.transform
  depth : ancestors.length ≤ 2 ^ 20
  bounded : ∀ k ≤ ancestors.length, ∀ r c, reach (magnitudes bone.transform) (ancestors.take k) r c ≤ 2 ^ 126

theorem magnitudes_apply (m : Matrix4x4) (r c : Fin 4) : magnitudes m r c = |numbers m r c| := rfl

theorem mul_abs_le {p : Matrix4x4} {b d : M4} (h : ∀ r c, |b r c| ≤ d r c) (r c : Fin 4) :
    |(numbers p * b) r c| ≤ (magnitudes p * d) r c := by
  rw [Matrix.mul_apply, Matrix.mul_apply]
  refine le_trans (Finset.abs_sum_le_sum_abs _ _) (Finset.sum_le_sum fun k _ => ?_)
  rw [abs_mul, magnitudes_apply]
  exact mul_le_mul_of_nonneg_left (h k c) (abs_nonneg _)

theorem mul_mono {a b d : M4} (ha : ∀ r c, 0 ≤ a r c) (h : ∀ r c, b r c ≤ d r c) (r c : Fin 4) : (a * b) r c ≤ (a * d) r c := by
  rw [Matrix.mul_apply, Matrix.mul_apply]
  exact Finset.sum_le_sum fun k _ => mul_le_mul_of_nonneg_left (h k c) (ha r k)

theorem magnitudes_nonneg (m : Matrix4x4) (r c : Fin 4) : 0 ≤ magnitudes m r c := abs_nonneg _

/-- One more ancestor. -/
theorem world_step {mul : Matrix4x4 → Matrix4x4 → Matrix4x4} (hmul : AccurateProduct mul) {p t : Matrix4x4} {X B : M4} {k : Nat}
    (hk : k ≤ 2 ^ 20) (hp : AllFinite p) (ht : AllFinite t) (hX : ∀ r c, |X r c| ≤ B r c)
    (he : ∀ r c, |value (entry t r c) - X r c| ≤ (k : ℚ) / 2 ^ 21 * B r c)
    {B' : M4} (hB' : ∀ r c, B' r c = (magnitudes p * B) r c + 1 / 2 ^ 125) (hb : ∀ r c, B' r c ≤ 2 ^ 126) :
    AllFinite (mul p t) ∧ (∀ r c, |(numbers p * X) r c| ≤ B' r c) ∧
    ∀ r c, |value (entry (mul p t) r c) - (numbers p * X) r c| ≤ ((k + 1 : Nat) : ℚ) / 2 ^ 21 * B' r c := by
  simp only [hB'] at hb ⊢
  clear hB'
  set g : ℚ := (k : ℚ) / 2 ^ 21 with hg
  have hk' : (k : ℚ) ≤ 2 ^ 20 := by exact_mod_cast hk
  have g0 : 0 ≤ g := by rw [hg]; positivity
  have g1 : g ≤ 1 / 2 := by rw [hg, div_le_div_iff₀ (by positivity) (by positivity)]; linarith
  have hB : ∀ r c, 0 ≤ B r c := fun r c => le_trans (abs_nonneg _) (hX r c)
  have hS : ∀ r c, 0 ≤ (magnitudes p * B) r c := fun r c => by
    rw [Matrix.mul_apply]
    exact Finset.sum_nonneg fun k _ => mul_nonneg (magnitudes_nonneg p r k) (hB k c)
  have ht' : ∀ r c, magnitudes t r c ≤ (1 + g) * B r c := fun r c => by
    have h1 := he r c
    have h2 := hX r c
    have h3 : |value (entry t r c)| ≤ |value (entry t r c) - X r c| + |X r c| := by
      have := abs_add_le (value (entry t r c) - X r c) (X r c)
      rwa [sub_add_cancel] at this
    show |value (entry t r c)| ≤ _
    linarith
  have hst : ∀ r c, (magnitudes p * magnitudes t) r c ≤ (1 + g) * (magnitudes p * B) r c := fun r c => by
    refine le_trans (mul_mono (d := (1 + g) • B) (magnitudes_nonneg p) ht' r c) (le_of_eq ?_)
    rw [Matrix.mul_smul, Matrix.smul_apply, smul_eq_mul]
  have hnX : ∀ r c, |(numbers p * X) r c| ≤ (magnitudes p * B) r c := mul_abs_le hX
  have hdiff : ∀ r c, |(numbers p * numbers t) r c - (numbers p * X) r c| ≤ g * (magnitudes p * B) r c := fun r c => by
    rw [← Matrix.sub_apply, ← Matrix.mul_sub]
    refine le_trans (mul_abs_le (d := g • B) he r c) (le_of_eq ?_)
    rw [Matrix.mul_smul, Matrix.smul_apply, smul_eq_mul]
  have small : ∀ r c, (magnitudes p * magnitudes t) r c ≤ 2 ^ 127 := fun r c => by
    have h1 := hst r c
    have h2 := hb r c
    have h3 : (1 + g) * (magnitudes p * B) r c ≤ 2 * (magnitudes p * B) r c := by
      have := hS r c
      nlinarith
    have h4 : (0 : ℚ) ≤ 1 / 2 ^ 125 := by positivity
    have h5 : (2 : ℚ) ^ 127 = 2 * 2 ^ 126 := by norm_num
    rw [h5]
    linarith
  refine ⟨fun r c => (hmul p t hp ht r c (small r c)).1, fun r c => ?_, fun r c => ?_⟩
  · have h4 : (0 : ℚ) ≤ 1 / 2 ^ 125 := by positivity
    linarith [hnX r c]
  · have h1 := (hmul p t hp ht r c (small r c)).2
    have h2 := hdiff r c
    have h3 := hst r c
    have h4 := hS r c
    have e : value (entry (mul p t) r c) - (numbers p * X) r c =
        (value (entry (mul p t) r c) - (numbers p * numbers t) r c) + ((numbers p * numbers t) r c - (numbers p * X) r c) := by
      ring
    rw [e]
    refine le_trans (abs_add_le _ _) ?_
    have hg' : (((k + 1 : Nat) : ℚ)) / 2 ^ 21 = g + 1 / 2 ^ 21 := by rw [hg]; push_cast; ring
    rw [hg']
    generalize (magnitudes p * B) r c = S at *
    have h5 : (magnitudes p * magnitudes t) r c * (5 / 2 ^ 24) ≤ 3 / 2 * S * (5 / 2 ^ 24) := by
      have : (magnitudes p * magnitudes t) r c ≤ 3 / 2 * S := by nlinarith
      gcongr
    have h6 : (0 : ℚ) ≤ g * (1 / 2 ^ 125) := by positivity
    have h7 : (1 : ℚ) / 2 ^ 147 ≤ 1 / 2 ^ 21 * (1 / 2 ^ 125) := by norm_num
    have h8 : 3 / 2 * S * (5 / 2 ^ 24) ≤ 1 / 2 ^ 21 * S := by nlinarith
    linarith

theorem world_accurate {mul : Matrix4x4 → Matrix4x4 → Matrix4x4} (hmul : AccurateProduct mul) (ps : List BoneData)
    {t : Matrix4x4} {X B : M4} {k : Nat} (hk : k + ps.length ≤ 2 ^ 20) (hp : ∀ b ∈ ps, AllFinite b.transform) (ht : AllFinite t)
    (hX : ∀ r c, |X r c| ≤ B r c) (he : ∀ r c, |value (entry t r c) - X r c| ≤ (k : ℚ) / 2 ^ 21 * B r c)
    (hb : ∀ j ≤ ps.length, ∀ r c, reach B (ps.take j) r c ≤ 2 ^ 126) :
    AllFinite (ps.foldl (fun t p => mul p.transform t) t) ∧
    ∀ r c, |value (entry (ps.foldl (fun t p => mul p.transform t) t) r c) -
        ((ps.reverse.map fun b => numbers b.transform).prod * X) r c| ≤
      ((k + ps.length : Nat) : ℚ) / 2 ^ 21 * reach B ps r c := by
  induction ps generalizing t X B k with
  | nil => exact ⟨ht, fun r c => by simpa [reach] using he r c⟩
  | cons p ps ih =>
    simp only [List.length_cons] at hk hb
    obtain ⟨B', hB'⟩ : ∃ B' : M4, B' = .of fun r c => (magnitudes p.transform * B) r c + 1 / 2 ^ 125 := ⟨_, rfl⟩
    have hr : ∀ l, reach B (p :: l) = reach B' l := fun l => by rw [hB', reach]
    have h1 := world_step hmul (k := k) (by omega) (hp p (by simp)) ht hX he (B' := B') (fun r c => by rw [hB', Matrix.of_apply])
      (fun r c => by
        have := hb 1 (by omega) r c
        rwa [List.take_succ_cons, hr, List.take_zero, reach] at this)
    have h2 := ih (k := k + 1) (by omega) (fun b hb' => hp b (by simp [hb'])) h1.1 h1.2.1 h1.2.2
      (fun j hj r c => by
        have := hb (j + 1) (by omega) r c
        rwa [List.take_succ_cons, hr] at this)
    rw [List.foldl_cons, hr]
    refine ⟨h2.1, fun r c => ?_⟩
    have h3 := h2.2 r c
    simp only [List.reverse_cons, List.map_append, List.map_cons, List.map_nil, List.prod_append, List.prod_cons, List.prod_nil,
      mul_one, Matrix.mul_assoc, List.length_cons] at h3 ⊢
    rw [show k + (ps.length + 1) = k + 1 + ps.length by omega]
    exact h3

/-- The world transform of a bone is the product of the transforms of its ancestors and the bone, up to rounding. -/
theorem C97_world (O : MatOps Matrix4x4) (hO : AccurateProduct O.mul) (data : SkelData) (bone : BoneData)
    (ancestors : List BoneData) (hl : Chain data.bones bone.parent_index ancestors) (hm : ModerateChain ancestors bone) :
    ∃ m, worldTransform O data bone = some (.ok m) ∧ AccurateWorld ancestors bone m := by
  obtain ⟨l, hl', he⟩ := C36_product O data bone (chain_not_cycle hl)
  rw [C36_ancestors_unique _ _ _ _ hl' hl] at he
  refine ⟨_, he, ?_⟩
  rw [List.foldr_reverse]
  have h := world_accurate hO ancestors (t := bone.transform) (X := numbers bone.transform) (B := magnitudes bone.transform) (k := 0)
    (by simpa using hm.depth) hm.finites hm.finite (fun _ _ => le_refl _) (fun r c => by simp [numbers]) hm.bounded
  exact ⟨h.1, fun r c => by simpa [exactWorld] using h.2 r c⟩

/-- The world transforms of a saved file. -/
theorem C97_saved (O : MatOps Matrix4x4) (hO : AccurateProduct O.mul) (d : SkelData) (bytes : Bytes)
    (h : d.write O = .ok bytes) : ∃ s, readAs Skel bytes = .ok (.V10 s) ∧
      ∀ (i : Nat) b ancestors, d.bones[i]? = some b → Chain d.bones b.parent_index ancestors → ModerateChain ancestors b →
        ∃ m, s.world_transforms[i]? = some m ∧ AccurateWorld ancestors b m := by
  obtain ⟨s, hs, saved⟩ := C66_skel O d bytes h
  refine ⟨s, hs, fun i b ancestors hb hl hm => ?_⟩
  obtain ⟨l, hl', hw, _⟩ := saved.world i b hb
  obtain ⟨m, h1, h2⟩ := C97_world O hO d b ancestors hl hm
  obtain ⟨l2, hl2, he2⟩ := C36_product O d b (chain_not_cycle hl)
  rw [he2] at h1
  cases h1
  rw [C36_ancestors_unique _ _ _ _ hl' hl2] at hw
  exact ⟨_, hw, h2⟩

/-! ## Transforms without rounding -/

/-- All numbers of the matrix are whole. -/
def Whole (m : M4) : Prop := ∀ r c, ∃ n : Int, m r c = n

/-- `glam`'s product of two matrices of whole numbers is exact if the absolute values add up to at most 2^24. -/
theorem whole_product {a b : Matrix4x4} (ha : AllFinite a) (hb : AllFinite b) (wa : Whole (numbers a)) (wb : Whole (numbers b))
    (hs : ∀ r c, (magnitudes a * magnitudes b) r c ≤ 2 ^ 24) :
    AllFinite (Glam.mulMat a b) ∧ numbers (Glam.mulMat a b) = numbers a * numbers b := by
  have key : ∀ r c, Finite (entry (Glam.mulMat a b) r c) ∧
      value (entry (Glam.mulMat a b) r c) = (numbers a * numbers b) r c := by
    intro r c
    choose n hn using wa
    choose k hk using wb
    have hs' := hs r c
    rw [Matrix.mul_apply, Fin.sum_univ_four] at hs' ⊢
    have hq : ∀ i, value (entry a r i) * value (entry b i c) = ((n r i * k i c : Int) : ℚ) := fun i => by
      push_cast
      rw [← hn r i, ← hk i c]
      rfl
    have ha' : ∀ i, magnitudes a r i * magnitudes b i c = |((n r i * k i c : Int) : ℚ)| := fun i => by
      rw [← hq i, abs_mul]; rfl
    simp only [ha'] at hs'
    have hnum : ∀ i, numbers a r i * numbers b i c = ((n r i * k i c : Int) : ℚ) := hq
    simp only [hnum]
    rw [mulMat_entry]
    generalize hz : (fun i => n r i * k i c) = z
    have hz' : ∀ i, n r i * k i c = z i := fun i => by rw [← hz]
    simp only [hz'] at hs' hq ⊢
    have a0 := abs_nonneg (z 0 : ℚ)
    have a1 := abs_nonneg (z 1 : ℚ)
    have a2 := abs_nonneg (z 2 : ℚ)
    have a3 := abs_nonneg (z 3 : ℚ)
    refine Glam.sum_exact (fun i => entry a r i) (fun i => entry b i c) (ha r) (fun i => hb i c) (fun i => (z i : ℚ)) hq
      (fun i => Glam.whole_isFloat _ ?_) ?_ ?_ ?_
    · match i with
      | 0 => linarith
      | 1 => linarith
      | 2 => linarith
      | 3 => linarith
    · have := Glam.whole_isFloat (z 0 + z 1) (by
        push_cast
        linarith [abs_add_le (z 0 : ℚ) (z 1)])
      push_cast at this
      exact this
    · have := Glam.whole_isFloat (z 0 + z 1 + z 2) (by
        push_cast
        linarith [abs_add_three (z 0 : ℚ) (z 1) (z 2)])
      push_cast at this
      exact this
    · have := Glam.whole_isFloat (z 0 + z 1 + z 2 + z 3) (by
        push_cast
        linarith [abs_add_three (z 0 : ℚ) (z 1) (z 2), abs_add_le ((z 0 : ℚ) + z 1 + z 2) (z 3)])
      push_cast at this
      exact this
  refine ⟨fun r c => (key r c).1, ?_⟩
  ext r c
  exact (key r c).2

/-- The product of the absolute values of the transforms. -/
def span (start : M4) : List BoneData → M4
  | [] => start
  | p :: ps => span (magnitudes p.transform * start) ps

theorem whole_mul {a b : M4} (ha : Whole a) (hb : Whole b) : Whole (a * b) := by
  intro r c
  choose n hn using ha
  choose k hk using hb
  refine ⟨∑ i, n r i * k i c, ?_⟩
  rw [Matrix.mul_apply]
  push_cast
  exact Finset.sum_congr rfl fun i _ => by rw [hn, hk]

theorem world_whole (ps : List BoneData) {t : Matrix4x4} {B : M4} (hp : ∀ b ∈ ps, AllFinite b.transform)
    (wp : ∀ b ∈ ps, Whole (numbers b.transform)) (ht : AllFinite t) (wt : Whole (numbers t)) (hB : ∀ r c, magnitudes t r c ≤ B r c)
    (hb : ∀ j ≤ ps.length, ∀ r c, span B (ps.take j) r c ≤ 2 ^ 24) :
    AllFinite (ps.foldl (fun t p => Glam.mulMat p.transform t) t) ∧
    numbers (ps.foldl (fun t p => Glam.mulMat p.transform t) t) =
      (ps.reverse.map fun b => numbers b.transform).prod * numbers t := by
  induction ps generalizing t B with
  | nil => exact ⟨ht, by simp⟩
  | cons p ps ih =>
    simp only [List.length_cons] at hb
    have hm := mul_mono (magnitudes_nonneg p.transform) hB
    have h1 := whole_product (hp p (by simp)) ht (wp p (by simp)) wt (fun r c => le_trans (hm r c) (by
      have := hb 1 (by omega) r c
      rwa [List.take_succ_cons, span, List.take_zero, span] at this))
    have h2 := ih (t := Glam.mulMat p.transform t) (B := magnitudes p.transform * B) (fun b hb' => hp b (by simp [hb']))
      (fun b hb' => wp b (by simp [hb'])) h1.1 (by rw [h1.2]; exact whole_mul (wp p (by simp)) wt)
      (fun r c => by
        rw [magnitudes_apply, h1.2]
        refine le_trans (mul_abs_le (d := magnitudes t) (fun _ _ => le_refl _) r c) (hm r c))
      (fun j hj r c => by
        have := hb (j + 1) (by omega) r c
        rwa [List.take_succ_cons, span] at this)
    rw [List.foldl_cons]
    refine ⟨h2.1, ?_⟩
    rw [h2.2, h1.2]
    simp only [List.reverse_cons, List.map_append, List.map_cons, List.map_nil, List.prod_append, List.prod_cons, List.prod_nil,
      mul_one, Matrix.mul_assoc]

/-- If all transforms consist of whole numbers, and the absolute values add up to at most 2^24 on the way, then there is no
rounding: the world transform is the exact product. -/
theorem C97_whole (inverse : Matrix4x4 → Matrix4x4) (data : SkelData) (bone : BoneData) (ancestors : List BoneData)
    (hl : Chain data.bones bone.parent_index ancestors) (hf : ∀ b ∈ bone :: ancestors, AllFinite b.transform)
    (hw : ∀ b ∈ bone :: ancestors, Whole (numbers b.transform))
    (hs : ∀ k ≤ ancestors.length, ∀ r c, span (magnitudes bone.transform) (ancestors.take k) r c ≤ 2 ^ 24) :
    ∃ m, worldTransform ⟨Glam.mulMat, inverse⟩ data bone = some (.ok m) ∧ AllFinite m ∧ numbers m = exactWorld ancestors bone := by
  obtain ⟨l, hl', he⟩ := C36_product ⟨Glam.mulMat, inverse⟩ data bone (chain_not_cycle hl)
  rw [C36_ancestors_unique _ _ _ _ hl' hl] at he
  refine ⟨_, he, ?_⟩
  rw [List.foldr_reverse]
  exact world_whole ancestors (fun b hb => hf b (by simp [hb])) (fun b hb => hw b (by simp [hb])) (hf bone (by simp))
    (hw bone (by simp)) (fun _ _ => le_refl _) hs

/-- `glam`'s product with the identity does not change the numbers. -/
theorem identity_product {t : Matrix4x4} (ht : AllFinite t) :
    AllFinite (Glam.mulMat .identity t) ∧ numbers (Glam.mulMat .identity t) = numbers t := by
  have hz : Glam.IsFloat 0 := ⟨0, by decide, by decide +kernel⟩
  have h1 : value 0x3f800000 = 1 := by decide +kernel
  have h0 : value 0 = 0 := by decide +kernel
  have key : ∀ r c, Finite (entry (Glam.mulMat .identity t) r c) ∧
      value (entry (Glam.mulMat .identity t) r c) = value (entry t r c) := by
    intro r c
    rw [mulMat_entry]
    have hi : ∀ i, entry Matrix4x4.identity r i = if r = i then 0x3f800000 else 0 := by
      intro i
      revert r i
      decide
    have hx : Glam.IsFloat (value (entry t r c)) := ⟨_, ht r c, rfl⟩
    have hq : ∀ i, value (entry Matrix4x4.identity r i) * value (entry t i c) = if r = i then value (entry t r c) else 0 := by
      intro i
      rw [hi i]
      by_cases h : r = i
      · subst h
        rw [if_pos rfl, if_pos rfl, h1, one_mul]
      · rw [if_neg h, if_neg h, h0, zero_mul]
    have h := Glam.sum_exact (fun i => entry Matrix4x4.identity r i) (fun i => entry t i c)
      (fun i => by show Finite (entry _ r i); rw [hi i]; split <;> decide) (fun i => ht i c) _ hq
      (fun i => by show Glam.IsFloat (if r = i then _ else 0); split; exact hx; exact hz)
    match r with
    | 0 => simp [hx] at h; exact h
    | 1 => simp [hx] at h; exact h
    | 2 => simp [hx, hz] at h; exact h
    | 3 => simp [hx, hz] at h; exact h
  refine ⟨fun r c => (key r c).1, ?_⟩
  ext r c
  exact (key r c).2

/-- If the transforms of all ancestors are the identity, the world transform has the numbers of the bone's transform. -/
theorem C97_identity (inverse : Matrix4x4 → Matrix4x4) (data : SkelData) (bone : BoneData) (ancestors : List BoneData)
    (hl : Chain data.bones bone.parent_index ancestors) (hf : AllFinite bone.transform)
    (hi : ∀ b ∈ ancestors, b.transform = .identity) :
    ∃ m, worldTransform ⟨Glam.mulMat, inverse⟩ data bone = some (.ok m) ∧ AllFinite m ∧ numbers m = numbers bone.transform := by
  obtain ⟨l, hl', he⟩ := C36_product ⟨Glam.mulMat, inverse⟩ data bone (chain_not_cycle hl)
  rw [C36_ancestors_unique _ _ _ _ hl' hl] at he
  refine ⟨_, he, ?_⟩
  rw [List.foldr_reverse]
  clear he hl' hl
  generalize bone.transform = t at *
  induction ancestors generalizing t with
  | nil => exact ⟨hf, rfl⟩
  | cons p ps ih =>
    rw [List.foldl_cons]
    show AllFinite (List.foldl _ (Glam.mulMat p.transform t) ps) ∧ _
    rw [hi p (by simp)]
    have h1 := identity_product hf
    have h2 := ih (fun b hb => hi b (by simp [hb])) _ h1.1
    exact ⟨h2.1, by rw [← h1.2]; exact h2.2⟩

/-! ## Examples -/

/-- Two translations and a scaling by 3; `0x40400000` is `3.0`. -/
def movedSkel : SkelData where
  major_version := 1
  minor_version := 0
  bones :=
    [⟨"Trans", ⟨⟨0x3f800000, 0, 0, 0⟩, ⟨0, 0x3f800000, 0, 0⟩, ⟨0, 0, 0x3f800000, 0⟩, ⟨0x40400000, 0, 0, 0x3f800000⟩⟩, none, .Disabled⟩,
     ⟨"Rot", ⟨⟨0x3f800000, 0, 0, 0⟩, ⟨0, 0x3f800000, 0, 0⟩, ⟨0, 0, 0x3f800000, 0⟩, ⟨0, 0x3dcccccd, 0, 0x3f800000⟩⟩, some 0, .Disabled⟩,
     ⟨"Hip", ⟨⟨0x40400000, 0, 0, 0⟩, ⟨0, 0x40400000, 0, 0⟩, ⟨0, 0, 0x40400000, 0⟩, ⟨0, 0, 0x3dcccccd, 0x3f800000⟩⟩, some 1, .Disabled⟩]

instance (m : Matrix4x4) : Decidable (AllFinite m) := inferInstanceAs (Decidable (∀ _, ∀ _, _))

instance (m : M4) (q : ℚ) : Decidable (∀ r c : Fin 4, m r c ≤ q) :=
  @Nat.decidableForallFin _ _ fun r => @Nat.decidableForallFin _ _ fun c => inferInstanceAs (Decidable (m r c ≤ q))

theorem moved_moderate : ModerateChain [movedSkel.bones[1], movedSkel.bones[0]] movedSkel.bones[2] where
  finite := by decide +kernel
  finites := by decide +kernel
  depth := by decide
  bounded := by
    intro k hk
    have : k = 0 ∨ k = 1 ∨ k = 2 := by simp at hk; omega
    rcases this with rfl | rfl | rfl <;> decide +kernel

example : Chain movedSkel.bones movedSkel.bones[2].parent_index [movedSkel.bones[1], movedSkel.bones[0]] :=
  .step rfl (.step rfl .root)

example : AccurateProduct (⟨Glam.mulMat, id⟩ : MatOps Matrix4x4).mul := C97_glam

example : ∃ bytes, movedSkel.write ⟨Glam.mulMat, id⟩ = .ok bytes := isOk_iff.mp (by decide +kernel)

/-- Rounding does happen: a bone at x = 1 below one at x = 2^24 is at 2^24. -/
def farSkel : SkelData where
  major_version := 1
  minor_version := 0
  bones :=
    [⟨"Trans", ⟨⟨0x3f800000, 0, 0, 0⟩, ⟨0, 0x3f800000, 0, 0⟩, ⟨0, 0, 0x3f800000, 0⟩, ⟨0x4b800000, 0, 0, 0x3f800000⟩⟩, none, .Disabled⟩,
     ⟨"Rot", ⟨⟨0x3f800000, 0, 0, 0⟩, ⟨0, 0x3f800000, 0, 0⟩, ⟨0, 0, 0x3f800000, 0⟩, ⟨0x3f800000, 0, 0, 0x3f800000⟩⟩, some 0, .Disabled⟩]

theorem C97_rounding (inverse : Matrix4x4 → Matrix4x4) : ∃ m,
    worldTransform ⟨Glam.mulMat, inverse⟩ farSkel farSkel.bones[1] = some (.ok m) ∧ AllFinite m ∧
    numbers m ≠ exactWorld [farSkel.bones[0]] farSkel.bones[1] := by
  refine ⟨Glam.mulMat farSkel.bones[0].transform farSkel.bones[1].transform, rfl, by decide +kernel, fun h => ?_⟩
  have := congrFun (congrFun h 0) 3
  revert this
  decide +kernel

/-- Scaling by 2^100 twice is not finite: the limit of `ModerateChain` is needed. -/
def hugeSkel : SkelData where
  major_version := 1
  minor_version := 0
  bones :=
    [⟨"Trans", ⟨⟨0x71800000, 0, 0, 0⟩, ⟨0, 0x3f800000, 0, 0⟩, ⟨0, 0, 0x3f800000, 0⟩, ⟨0, 0, 0, 0x3f800000⟩⟩, none, .Disabled⟩,
     ⟨"Rot", ⟨⟨0x71800000, 0, 0, 0⟩, ⟨0, 0x3f800000, 0, 0⟩, ⟨0, 0, 0x3f800000, 0⟩, ⟨0, 0, 0, 0x3f800000⟩⟩, some 0, .Disabled⟩]

theorem C97_overflow (inverse : Matrix4x4 → Matrix4x4) : (∀ b ∈ hugeSkel.bones, AllFinite b.transform) ∧ ∃ m,
    worldTransform ⟨Glam.mulMat, inverse⟩ hugeSkel hugeSkel.bones[1] = some (.ok m) ∧ ¬ AllFinite m := by
  refine ⟨by decide +kernel, Glam.mulMat hugeSkel.bones[0].transform hugeSkel.bones[1].transform, rfl, by decide +kernel⟩

/-- Two bones whose transforms have whole numbers. -/
def wholeBone : BoneData :=
  ⟨"Hip", ⟨⟨0x40400000, 0, 0, 0⟩, ⟨0, 0x40400000, 0, 0⟩, ⟨0, 0, 0x40400000, 0⟩, ⟨0, 0, 0, 0x3f800000⟩⟩, some 0, .Disabled⟩

example : (∀ k ≤ [movedSkel.bones[0]].length, ∀ r c, span (magnitudes wholeBone.transform) ([movedSkel.bones[0]].take k) r c ≤ 2 ^ 24) ∧
    Whole (numbers wholeBone.transform) ∧ Whole (numbers movedSkel.bones[0].transform) := by
  have hw : ∀ m : M4, (∀ r c : Fin 4, (m r c).den = 1) → Whole m := fun m h r c => ⟨(m r c).num, by
    conv_lhs => rw [← Rat.num_div_den (m r c), h r c]
    simp⟩
  refine ⟨?_, hw _ (by decide +kernel), hw _ (by decide +kernel)⟩
  intro k hk
  have : k = 0 ∨ k = 1 := by simp at hk; omega
  rcases this with rfl | rfl <;> decide +kernel

/-! ## Points and vectors -/

/-- Component `i` of a transformed element: the row of the matrix times (x, y, z, w), up to rounding. A missing `z` is 0. -/
def NearRow (m : Matrix4x4) (i : Fin 4) (p : Vector F32 3) (w : ℚ) (x : F32) : Prop :=
  Finite x ∧
  |value x - (value (entry m i 0) * value p[0] + value (entry m i 1) * value p[1] + value (entry m i 2) * value p[2] +
      value (entry m i 3) * w)| ≤
    (|value (entry m i 0) * value p[0]| + |value (entry m i 1) * value p[1]| + |value (entry m i 2) * value p[2]| +
      |value (entry m i 3) * w|) * (5 / 2 ^ 24) + 1 / 2 ^ 147

theorem near_row {mulVec : Matrix4x4 → Vector F32 4 → Vector F32 4} (hmul : AccurateVector mulVec) {m : Matrix4x4}
    (hm : AllFinite m) {p : Vector F32 3} (hp : ∀ k : Fin 3, Finite p[k]) {w : F32} (hw : Finite w) (i : Fin 4)
    (hs : |value (entry m i 0) * value p[0]| + |value (entry m i 1) * value p[1]| + |value (entry m i 2) * value p[2]| +
      |value (entry m i 3) * value w| ≤ 2 ^ 127) :
    NearRow m i p (value w) (mulVec m #v[p[0], p[1], p[2], w])[i] := by
  have h := hmul m #v[p[0], p[1], p[2], w] hm (fun k => by
    match k with
    | 0 => exact hp 0
    | 1 => exact hp 1
    | 2 => exact hp 2
    | 3 => exact hw) i
  simp only [Fin.sum_univ_four] at h
  exact h hs

theorem value_of_one : value 0x3f800000 = 1 := by decide +kernel
theorem value_of_zero : value 0 = 0 := by decide +kernel

/-- `transform_points` applies the matrix to (x, y, z, 1), up to rounding. -/
theorem C97_points (mulVec : Matrix4x4 → Vector F32 4 → Vector F32 4) (hmul : AccurateVector mulVec) (m : Matrix4x4)
    (hm : AllFinite m) (d : VectorData) (i : Fin 3) (hd : i.val < dimension d) (k : Nat) (p : Vector F32 3)
    (hk : (VectorData.toVec3 d)[k]? = some p) (hp : ∀ k : Fin 3, Finite p[k])
    (hs : |value (entry m i.castSucc 0) * value p[0]| + |value (entry m i.castSucc 1) * value p[1]| +
      |value (entry m i.castSucc 2) * value p[2]| + |value (entry m i.castSucc 3)| ≤ 2 ^ 127) :
    ∃ x, (components i (MeshData.transformPoints (mulVec m) d))[k]? = some (some x) ∧ NearRow m i.castSucc p 1 x := by
  refine ⟨_, ?_, value_of_one ▸ near_row hmul hm hp (w := 0x3f800000) (by decide) i.castSucc (by rw [value_of_one, mul_one]; exact hs)⟩
  rw [(C44_values (mulVec m) d i i.isLt hd).1, List.getElem?_map, hk]
  simp

/-- `transform_vectors` applies the matrix to (x, y, z, 0): translations do not matter. -/
theorem C97_vectors (mulVec : Matrix4x4 → Vector F32 4 → Vector F32 4) (hmul : AccurateVector mulVec) (m : Matrix4x4)
    (hm : AllFinite m) (d : VectorData) (i : Fin 3) (hd : i.val < dimension d) (k : Nat) (p : Vector F32 3)
    (hk : (VectorData.toVec3 d)[k]? = some p) (hp : ∀ k : Fin 3, Finite p[k])
    (hs : |value (entry m i.castSucc 0) * value p[0]| + |value (entry m i.castSucc 1) * value p[1]| +
      |value (entry m i.castSucc 2) * value p[2]| ≤ 2 ^ 127) :
    ∃ x, (components i (MeshData.transformVectors (mulVec m) d))[k]? = some (some x) ∧ NearRow m i.castSucc p 0 x := by
  refine ⟨_, ?_, value_of_zero ▸ near_row hmul hm hp (w := 0) (by decide) i.castSucc
    (by rw [value_of_zero, mul_zero, abs_zero, add_zero]; exact hs)⟩
  rw [(C44_values (mulVec m) d i i.isLt hd).2, List.getElem?_map, hk]
  simp

/-- The point (1, 3, 0), given with two components, and a translation by 3. -/
example : (VectorData.toVec3 (.Vector2 [#v[0x3f800000, 0x40400000]]))[0]? = some #v[0x3f800000, 0x40400000, 0] ∧
    (∀ k : Fin 3, Finite (#v[0x3f800000, 0x40400000, 0] : Vector F32 3)[k]) ∧
    |value (entry movedSkel.bones[0].transform 0 0) * value 0x3f800000| +
      |value (entry movedSkel.bones[0].transform 0 1) * value 0x40400000| +
      |value (entry movedSkel.bones[0].transform 0 2) * value 0| + |value (entry movedSkel.bones[0].transform 0 3)| ≤ 2 ^ 127 := by
  refine ⟨rfl, by decide, by decide +kernel⟩

end Verif.Props
