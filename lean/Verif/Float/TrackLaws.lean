import Verif.Float.RangeLaws
import Verif.Data.AnimTrackLaws
/-!
# Compressed tracks with real floats
-/

namespace Verif.Ieee

/-! ## Smallest and largest values -/

theorem ops_min_eq {x y : F32} (hx : (ofBits x).Fin) (hy : (ofBits y).Fin) :
    ops.min x y = if (ofBits x).val ≤ (ofBits y).val then x else y := by
  show toBits ((ofBits x).fmin (ofBits y)) = _
  unfold Fl.fmin
  simp only [hx.not_nan, hy.not_nan, Bool.false_eq_true, if_false, Fl.key_le_iff]
  split <;> exact toBits_ofBits _

theorem ops_max_eq {x y : F32} (hx : (ofBits x).Fin) (hy : (ofBits y).Fin) :
    ops.max x y = if (ofBits y).val ≤ (ofBits x).val then x else y := by
  show toBits ((ofBits x).fmax (ofBits y)) = _
  unfold Fl.fmax
  simp only [hx.not_nan, hy.not_nan, Bool.false_eq_true, if_false, Fl.key_le_iff]
  split <;> exact toBits_ofBits _

theorem foldl_min_spec : ∀ (vs : List F32) (a : F32), (∀ v ∈ a :: vs, (ofBits v).Fin) →
    vs.foldl ops.min a ∈ a :: vs ∧ ∀ v ∈ a :: vs, (ofBits (vs.foldl ops.min a)).val ≤ (ofBits v).val
  | [], a, _ => by simp
  | b :: vs, a, h => by
    have ha := h a (by simp)
    have hb := h b (by simp)
    have hm := ops_min_eq ha hb
    have hmem : ops.min a b = a ∨ ops.min a b = b := by rw [hm]; split <;> simp
    have hle : (ofBits (ops.min a b)).val ≤ (ofBits a).val ∧ (ofBits (ops.min a b)).val ≤ (ofBits b).val := by
      rw [hm]; split
      · rename_i h1; exact ⟨le_refl _, h1⟩
      · rename_i h1; exact ⟨(not_le.mp h1).le, le_refl _⟩
    obtain ⟨h1, h2⟩ := foldl_min_spec vs (ops.min a b) (by
      intro v hv
      rcases List.mem_cons.mp hv with rfl | hv
      · rcases hmem with e | e <;> rw [e] <;> assumption
      · exact h v (by simp [hv]))
    rw [List.foldl_cons]
    constructor
    · rcases List.mem_cons.mp h1 with e | e
      · rw [e]; rcases hmem with e | e <;> simp [e]
      · simp [e]
    · intro v hv
      have h0 := h2 (ops.min a b) (by simp)
      rcases List.mem_cons.mp hv with rfl | hv
      · exact h0.trans hle.1
      · rcases List.mem_cons.mp hv with rfl | hv
        · exact h0.trans hle.2
        · exact h2 v (by simp [hv])

theorem foldl_max_spec : ∀ (vs : List F32) (a : F32), (∀ v ∈ a :: vs, (ofBits v).Fin) →
    vs.foldl ops.max a ∈ a :: vs ∧ ∀ v ∈ a :: vs, (ofBits v).val ≤ (ofBits (vs.foldl ops.max a)).val
  | [], a, _ => by simp
  | b :: vs, a, h => by
    have ha := h a (by simp)
    have hb := h b (by simp)
    have hm := ops_max_eq ha hb
    have hmem : ops.max a b = a ∨ ops.max a b = b := by rw [hm]; split <;> simp
    have hle : (ofBits a).val ≤ (ofBits (ops.max a b)).val ∧ (ofBits b).val ≤ (ofBits (ops.max a b)).val := by
      rw [hm]; split
      · rename_i h1; exact ⟨le_refl _, h1⟩
      · rename_i h1; exact ⟨(not_le.mp h1).le, le_refl _⟩
    obtain ⟨h1, h2⟩ := foldl_max_spec vs (ops.max a b) (by
      intro v hv
      rcases List.mem_cons.mp hv with rfl | hv
      · rcases hmem with e | e <;> rw [e] <;> assumption
      · exact h v (by simp [hv]))
    rw [List.foldl_cons]
    constructor
    · rcases List.mem_cons.mp h1 with e | e
      · rw [e]; rcases hmem with e | e <;> simp [e]
      · simp [e]
    · intro v hv
      have h0 := h2 (ops.max a b) (by simp)
      rcases List.mem_cons.mp hv with rfl | hv
      · exact hle.1.trans h0
      · rcases List.mem_cons.mp hv with rfl | hv
        · exact hle.2.trans h0
        · exact h2 v (by simp [hv])

theorem findMin_spec {vs : List F32} {v : F32} (hv : v ∈ vs) (h : ∀ v ∈ vs, (ofBits v).Fin) :
    findMinF32 ops vs ∈ vs ∧ ∀ v ∈ vs, (ofBits (findMinF32 ops vs)).val ≤ (ofBits v).val := by
  cases vs with
  | nil => cases hv
  | cons a vs => exact foldl_min_spec vs a h

theorem findMax_spec {vs : List F32} {v : F32} (hv : v ∈ vs) (h : ∀ v ∈ vs, (ofBits v).Fin) :
    findMaxF32 ops vs ∈ vs ∧ ∀ v ∈ vs, (ofBits v).val ≤ (ofBits (findMaxF32 ops vs)).val := by
  cases vs with
  | nil => cases hv
  | cons a vs => exact foldl_max_spec vs a h

/-- Reducing the components of a list of vectors. -/
theorem reduceOr_map {f : α → α → α} {g : β → β → β} {c : α → β} (h : ∀ x y, c (f x y) = g (c x) (c y)) (d : α)
    (vs : List α) : c (reduceOr f d vs) = reduceOr g (c d) (vs.map c) := by
  cases vs with
  | nil => rfl
  | cons a vs =>
    show c (vs.foldl f a) = (vs.map c).foldl g (c a)
    induction vs generalizing a with
    | nil => rfl
    | cons b vs ih => simp only [List.foldl_cons, List.map_cons]; rw [ih, h]

/-! ## One value -/

/-- Both directions of one value. -/
theorem quant_close {v lo hi : F32} (fv : (ofBits v).Fin) (fl : (ofBits lo).Fin) (fh : (ofBits hi).Fin)
    (h1 : (ofBits lo).val ≤ (ofBits v).val) (h2 : (ofBits v).val ≤ (ofBits hi).val) {R M : ℚ}
    (hR : (ofBits hi).val - (ofBits lo).val ≤ R) (hRl : R < single.limit) (hl : |(ofBits lo).val| ≤ M)
    (hh : |(ofBits hi).val| ≤ M) (hM : M ≤ single.big) :
    (ofBits (quantF32 ops lo hi lo v)).Fin ∧
    |(ofBits (quantF32 ops lo hi lo v)).val - (ofBits v).val| ≤ 5 * R / (2 ^ 24 - 1) + M / 2 ^ 23 + 1 / 2 ^ 149 ∧
    ((ofBits v).val = (ofBits lo).val ∨ (ofBits v).val = (ofBits hi).val →
      (ofBits (quantF32 ops lo hi lo v)).val = (ofBits v).val) ∧
    (ofBits lo).val ≤ (ofBits (quantF32 ops lo hi lo v)).val ∧
    (ofBits (quantF32 ops lo hi lo v)).val ≤ (ofBits hi).val := by
  have hM0 : 0 ≤ M := (abs_nonneg _).trans hl
  have hR0 : 0 ≤ R := by linarith
  by_cases heq : ops.eq lo hi = true
  · have hval : (ofBits lo).val = (ofBits hi).val := (Fl.eq_iff fl.not_nan fh.not_nan).mp heq
    have hv : (ofBits v).val = (ofBits lo).val := le_antisymm (h2.trans_eq hval.symm) h1
    have e : quantF32 ops lo hi lo v = lo := by unfold quantF32; rw [if_pos heq]
    rw [e, hv]
    refine ⟨fl, ?_, fun _ => rfl, le_rfl, hval.le⟩
    rw [sub_self, abs_zero]
    positivity
  · have hne : (ofBits lo).val ≠ (ofBits hi).val := fun h => heq ((Fl.eq_iff fl.not_nan fh.not_nan).mpr h)
    have hlt : (ofBits lo).val < (ofBits hi).val := lt_of_le_of_ne (h1.trans h2) hne
    have hr : (ofBits hi).val - (ofBits lo).val < single.limit := lt_of_le_of_lt hR hRl
    obtain ⟨c1, c2⟩ := compress_error fv fl fh h1 h2 hlt hr
    have e : quantF32 ops lo hi lo v = toBits ((decompressIn (floats double)
        (compressIn (floats single) (Fl.toNat (2 ^ 32 - 1)) (ofBits v) (ofBits lo) (ofBits hi) 24)
        ((ofBits lo).convert double) ((ofBits hi).convert double) 24).convert single) := by
      unfold quantF32
      rw [if_neg heq]
      show toBits ((decompressIn (floats double) (UInt32.ofNat ((UInt32.ofNat _).toNat % 2 ^ 24)).toNat _ _ 24).convert
        single) = _
      congr 3
      simp only [UInt32.toNat_ofNat']
      omega
    have hend : ((ofBits v).val = (ofBits lo).val ∨ (ofBits v).val = (ofBits hi).val →
        (ofBits (quantF32 ops lo hi lo v)).val = (ofBits v).val) := by
      rintro (h | h)
      · rw [e, compress_lo fv fl fh h hlt hr]
        obtain ⟨fz, vz⟩ := decompress_lo fl fh
        rw [fz.ofBits_toBits, vz, h]
      · rw [e, compress_hi fv fl fh h hlt hr]
        obtain ⟨fz, vz⟩ := decompress_hi fl fh
        rw [fz.ofBits_toBits, vz, h]
    refine ⟨?_, ?_, hend, ?_⟩
    · rw [e]
      obtain ⟨fz, _⟩ := decompress_error fl fh M hl hh hM _ c1
      rw [fz.ofBits_toBits]; exact fz
    · rw [e]
      obtain ⟨fz, ez⟩ := decompress_error fl fh M hl hh hM _ c1
      rw [fz.ofBits_toBits]
      generalize ((decompressIn (floats double)
        (compressIn (floats single) (Fl.toNat (2 ^ 32 - 1)) (ofBits v) (ofBits lo) (ofBits hi) 24)
        ((ofBits lo).convert double) ((ofBits hi).convert double) 24).convert single).val = z at *
      generalize (compressIn (floats single) (Fl.toNat (2 ^ 32 - 1)) (ofBits v) (ofBits lo) (ofBits hi) 24 : ℚ) = c at *
      generalize (ofBits v).val = V at *
      generalize (ofBits lo).val = L at *
      generalize (ofBits hi).val = H at *
      have hX : 0 < H - L := by linarith
      have k : |L * (1 - c / 16777215) + H * (c / 16777215) - V| ≤ 5 * R / (2 ^ 24 - 1) := by
        have e2 : L * (1 - c / 16777215) + H * (c / 16777215) - V = (H - L) * (c / 16777215 - (V - L) / (H - L)) := by
          field_simp; ring
        rw [e2, abs_mul, abs_of_pos hX]
        calc (H - L) * |c / 16777215 - (V - L) / (H - L)| ≤ R * (5 / 16777215) :=
              mul_le_mul hR c2 (abs_nonneg _) hR0
          _ = 5 * R / (2 ^ 24 - 1) := by norm_num; ring
      have := abs_sub_le z (L * (1 - c / 16777215) + H * (c / 16777215)) V
      linarith
    · rw [e]
      obtain ⟨fz, _⟩ := decompress_error fl fh M hl hh hM _ c1
      rw [fz.ofBits_toBits]
      exact decompress_range fl fh hlt.le _ c1

end Verif.Ieee
