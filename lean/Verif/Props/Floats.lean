import Verif.Float.ValueSpec
import Verif.Props.AnimFiles
import Verif.Props.MeshData
/-!
# Properties of the float arithmetic

C25: quantization in exact arithmetic. C29: validation of the final frame index. C50: saving meshes again.
C52: accuracy of compressed tracks. C53: saving animations again.
-/

namespace Verif.Props
open Verif Ieee AnimData

/-! ## C25 -/

/-- Exact arithmetic. -/
def rationals : Arith ℚ := ⟨fun n => n, (· + ·), (· - ·), (· * ·), (· / ·)⟩

/-- `as u32` for an exact number. -/
def wholePart (x : ℚ) : Nat := min x.floor.toNat (2 ^ 32 - 1)

theorem wholePart_spec {x : ℚ} (h0 : 0 ≤ x) (h1 : x ≤ 2 ^ 32 - 1) : (wholePart x : ℚ) ≤ x ∧ x < wholePart x + 1 := by
  have hf : (x.floor : ℚ) ≤ x := Rat.floor_le x
  have hg : x < (x.floor : ℚ) + 1 := by have := Rat.lt_floor (x := x); linarith
  have hn : 0 ≤ x.floor := Rat.le_floor_iff.mpr (by exact_mod_cast h0)
  have hl : x.floor ≤ 2 ^ 32 - 1 := by
    have : (x.floor : ℚ) ≤ ((2 ^ 32 - 1 : Int) : ℚ) := hf.trans (by push_cast; linarith)
    exact_mod_cast this
  have he : wholePart x = x.floor.toNat := by unfold wholePart; omega
  have hc : ((x.floor.toNat : Nat) : ℚ) = x.floor := by
    have : ((x.floor.toNat : Nat) : Int) = x.floor := Int.toNat_of_nonneg hn
    exact_mod_cast this
  rw [he, hc]
  exact ⟨hf, hg⟩

/-- Compression and decompression in exact arithmetic. -/
theorem C25_exact_error (lo hi v : ℚ) (n : Nat) (hn : 1 ≤ n ∧ n ≤ 32) (h : lo < hi) (h1 : lo ≤ v) (h2 : v ≤ hi) :
    let stored := compressIn rationals wholePart v lo hi n
    let restored := decompressIn rationals stored lo hi n
    stored < 2 ^ n ∧ restored ≤ v ∧ v - restored < (hi - lo) / (2 ^ n - 1) ∧ (v = lo → restored = v) ∧
      (v = hi → restored = v) := by
  intro stored restored
  have hX : 0 < hi - lo := by linarith
  have h2n : 2 ≤ 2 ^ n := by
    have := Nat.pow_le_pow_right (n := 2) (by decide) hn.1
    omega
  have h32 : 2 ^ n ≤ 2 ^ 32 := Nat.pow_le_pow_right (by decide) hn.2
  have hS : ((bitMask n : Nat) : ℚ) = 2 ^ n - 1 := by
    unfold bitMask; rw [Nat.cast_sub (by omega)]; push_cast; rfl
  have hSp : (0 : ℚ) < 2 ^ n - 1 := by
    have : (2 : ℚ) ≤ 2 ^ n := by exact_mod_cast h2n
    linarith
  have hS32 : (2 ^ n - 1 : ℚ) ≤ 2 ^ 32 - 1 := by
    have : (2 ^ n : ℚ) ≤ 2 ^ 32 := by exact_mod_cast h32
    linarith
  have hst : stored = wholePart ((v - lo) / (hi - lo) * (2 ^ n - 1)) := by
    show wholePart ((v - lo) / (hi - lo) * ((bitMask n : Nat) : ℚ)) = _
    rw [hS]
  have hre : restored = lo * (1 - stored / (2 ^ n - 1)) + hi * (stored / (2 ^ n - 1)) := by
    show lo * (((1 : Nat) : ℚ) - (stored : ℚ) / ((bitMask n : Nat) : ℚ)) + hi * ((stored : ℚ) / ((bitMask n : Nat) : ℚ)) = _
    rw [hS]; push_cast; rfl
  have hr0 : 0 ≤ (v - lo) / (hi - lo) := div_nonneg (by linarith) hX.le
  have hr1 : (v - lo) / (hi - lo) ≤ 1 := by rw [div_le_one hX]; linarith
  have hx0 : 0 ≤ (v - lo) / (hi - lo) * (2 ^ n - 1) := mul_nonneg hr0 hSp.le
  have hx1 : (v - lo) / (hi - lo) * (2 ^ n - 1) ≤ 2 ^ n - 1 := mul_le_of_le_one_left hSp.le hr1
  obtain ⟨w1, w2⟩ := wholePart_spec hx0 (hx1.trans hS32)
  rw [← hst] at w1 w2
  have hv : v = lo + (hi - lo) * ((v - lo) / (hi - lo)) := by field_simp; ring
  generalize (v - lo) / (hi - lo) = r at *
  have hre2 : restored = lo + (hi - lo) * (stored / (2 ^ n - 1)) := by rw [hre]; ring
  have w1' : (stored : ℚ) / (2 ^ n - 1) ≤ r := by rw [div_le_iff₀ hSp]; exact w1
  have w2' : r - stored / (2 ^ n - 1) < 1 / (2 ^ n - 1) := by
    rw [← sub_pos]
    have e : 1 / (2 ^ n - 1) - (r - (stored : ℚ) / (2 ^ n - 1)) = (stored + 1 - r * (2 ^ n - 1)) / (2 ^ n - 1) := by
      field_simp; ring
    rw [e]; exact div_pos (by linarith) hSp
  refine ⟨?_, ?_, ?_, ?_, ?_⟩
  · have : (stored : ℚ) < 2 ^ n := by linarith
    exact_mod_cast this
  · rw [hre2, hv]; nlinarith
  · have e : v - restored = (hi - lo) * (r - stored / (2 ^ n - 1)) := by rw [hre2, hv]; ring
    have e' : (hi - lo) / (2 ^ n - 1) = (hi - lo) * (1 / (2 ^ n - 1)) := div_eq_mul_one_div _ _
    rw [e, e']
    exact mul_lt_mul_of_pos_left w2' hX
  · intro h0
    have hr : r = 0 := by
      have : (hi - lo) * r = 0 := by linarith
      exact (mul_eq_zero.mp this).resolve_left hX.ne'
    have : (stored : ℚ) ≤ 0 := by rw [hr, zero_mul] at w1; exact w1
    have hz : (stored : ℚ) = 0 := le_antisymm this (by positivity)
    rw [hre2, hz, h0]; ring
  · intro h0
    have hr : r = 1 := by
      have : (hi - lo) * (r - 1) = 0 := by linarith
      have := (mul_eq_zero.mp this).resolve_left hX.ne'
      linarith
    rw [hr, one_mul] at w1 w2
    have hz : (stored : ℚ) = 2 ^ n - 1 := by
      have a1 : (stored : ℚ) ≤ (bitMask n : Nat) := by rw [hS]; exact w1
      have a2 : ((bitMask n : Nat) : ℚ) < (stored : ℚ) + 1 := by rw [hS]; exact w2
      have b1 : stored ≤ bitMask n := by exact_mod_cast a1
      have b2 : bitMask n < stored + 1 := by exact_mod_cast a2
      rw [show stored = bitMask n by omega, hS]
    rw [hre2, hz, div_self hSp.ne', h0]; ring

example : (-1 : ℚ) < 1 ∧ (-1 : ℚ) ≤ 3 / 10 ∧ (3 / 10 : ℚ) ≤ 1 ∧
    compressIn rationals wholePart (3 / 10) (-1) 1 8 = 165 ∧
    decompressIn rationals 165 (-1) 1 8 = 5 / 17 := by
  refine ⟨by norm_num, by norm_num, by norm_num, by decide +kernel, by decide +kernel⟩

/-- In exact arithmetic, restored values are stored again without a change. -/
theorem C25_exact_again (lo hi : ℚ) (n stored : Nat) (hn : 1 ≤ n ∧ n ≤ 32) (h : lo < hi) (hs : stored < 2 ^ n) :
    compressIn rationals wholePart (decompressIn rationals stored lo hi n) lo hi n = stored := by
  have hX : hi - lo ≠ 0 := by linarith
  have h2n : 2 ≤ 2 ^ n := by
    have := Nat.pow_le_pow_right (n := 2) (by decide) hn.1
    omega
  have h32 : 2 ^ n ≤ 2 ^ 32 := Nat.pow_le_pow_right (by decide) hn.2
  have hS : ((bitMask n : Nat) : ℚ) ≠ 0 := by
    have : bitMask n ≠ 0 := by unfold bitMask; omega
    exact_mod_cast this
  show wholePart ((lo * (((1 : Nat) : ℚ) - (stored : ℚ) / ((bitMask n : Nat) : ℚ)) +
    hi * ((stored : ℚ) / ((bitMask n : Nat) : ℚ)) - lo) / (hi - lo) * ((bitMask n : Nat) : ℚ)) = stored
  have e : (lo * (((1 : Nat) : ℚ) - (stored : ℚ) / ((bitMask n : Nat) : ℚ)) +
    hi * ((stored : ℚ) / ((bitMask n : Nat) : ℚ)) - lo) / (hi - lo) * ((bitMask n : Nat) : ℚ) = stored := by
    push_cast
    field_simp
    ring
  rw [e]
  have h1 : (stored : ℚ) ≤ 2 ^ 32 - 1 := by
    have : stored + 1 ≤ 2 ^ 32 := by omega
    have : ((stored + 1 : Nat) : ℚ) ≤ ((2 ^ 32 : Nat) : ℚ) := by exact_mod_cast this
    push_cast at this
    linarith
  obtain ⟨w1, w2⟩ := wholePart_spec (x := (stored : ℚ)) (by positivity) h1
  have b1 : wholePart (stored : ℚ) ≤ stored := by exact_mod_cast w1
  have b2 : stored < wholePart (stored : ℚ) + 1 := by exact_mod_cast w2
  omega

/-! ## C29 -/

/-- The final frame index reaches the last of `longest` frames. -/
def Reaches (index : F32) (longest : Nat) : Prop :=
  index = 0x7f800000 ∨ Finite index ∧ 0 ≤ value index ∧ (longest : ℚ) - 1 ≤ value index

theorem lastFrame_val {n : Nat} (hn : n ≤ 2 ^ 24) :
    (ofBits (ops.lastFrame n)).Fin ∧ (ofBits (ops.lastFrame n)).val = n - 1 := by
  show (ofBits (toBits ((Fl.ofNat n).sub (Fl.ofNat 1)))).Fin ∧ (ofBits (toBits ((Fl.ofNat n).sub (Fl.ofNat 1)))).val = _
  obtain ⟨f1, v1⟩ := single_ofNat hn
  obtain ⟨f2, v2⟩ := single_ofNat (n := 1) (by decide)
  cases n with
  | zero =>
    obtain ⟨f, v⟩ := Fl.sub_exact (w := (Fl.ofNat 1 : Fl single).neg') f1 f2 f2.neg' (by
      rw [Fl.val_neg', v1, v2]; push_cast; ring)
    rw [f.ofBits_toBits]
    refine ⟨f, ?_⟩
    rw [v, Fl.val_neg', v2]; push_cast; ring
  | succ n =>
    obtain ⟨f3, v3⟩ := single_ofNat (n := n) (by omega)
    obtain ⟨f, v⟩ := Fl.sub_exact (w := (Fl.ofNat n : Fl single)) f1 f2 f3 (by
      rw [v1, v2, v3]; push_cast; ring)
    rw [f.ofBits_toBits]
    refine ⟨f, ?_⟩
    rw [v, v3]; push_cast; ring

theorem ge_iff {x y : F32} (hy : (ofBits y).Fin) :
    ops.ge x y = true ↔ x = 0x7f800000 ∨ Finite x ∧ (ofBits y).val ≤ value x := by
  show (ofBits y).le (ofBits x) = true ↔ _
  rcases Nat.lt_trichotomy (ofBits x).mag single.inf with h | h | h
  · have hx : (ofBits x).Fin := h
    have hne : x ≠ 0x7f800000 := by
      intro e
      rw [e] at h
      exact absurd h (by decide)
    rw [Fl.le_iff hy.not_nan hx.not_nan, value_eq, finite_iff]
    constructor
    · intro h; exact .inr ⟨hx, h⟩
    · rintro (h | h)
      · exact absurd h hne
      · exact h.2
  · have hnf : ¬ Finite x := by rw [finite_iff]; unfold Fl.Fin; omega
    have hxn : (ofBits x).isNan = false := by unfold Fl.isNan; simp; omega
    have hx : x = toBits ⟨(ofBits x).neg, single.inf⟩ := by
      rw [← h]; exact (toBits_ofBits x).symm
    unfold Fl.le
    rw [hy.not_nan, hxn]
    have hy' : (ofBits y).mag < single.inf := hy
    cases hneg : (ofBits x).neg with
    | false =>
      rw [hneg] at hx
      have : x = 0x7f800000 := by rw [hx]; decide
      simp only [this, true_or, iff_true]
      rw [← this]
      simp only [Fl.key, hneg, h]
      split <;> simp <;> omega
    | true =>
      rw [hneg] at hx
      have : x ≠ 0x7f800000 := by rw [hx]; decide
      simp only [this, hnf, false_and, or_self, iff_false]
      simp only [Fl.key, hneg, h]
      split <;> simp <;> omega
  · have hnf : ¬ Finite x := by rw [finite_iff]; unfold Fl.Fin; omega
    have hne : x ≠ 0x7f800000 := by
      intro e
      rw [e] at h
      exact absurd h (by decide)
    have hxn : (ofBits x).isNan = true := by unfold Fl.isNan; simpa using h
    simp [Fl.le, hxn, hnf, hne]

theorem both_iff {A B p q : Prop} : (A ∨ B ∧ p ∧ q) ↔ (A ∨ B ∧ p) ∧ (A ∨ B ∧ q) := by tauto

/-- Up to `2 ^ 24` frames, where every frame index is a `f32`. -/
theorem C29_outcome (data : AnimData) (longest : Nat) (hn : Longest data.groups longest) (hlt : longest ≤ 2 ^ 24) :
    (¬ SupportedVersion data → create ops data =
      .error (.unsupportedVersion data.major_version.toNat data.minor_version.toNat)) ∧
    (SupportedVersion data → ¬ Reaches data.final_frame_index longest →
      create ops data = .error (.invalidFinalFrameIndex data.final_frame_index)) ∧
    (SupportedVersion data → Reaches data.final_frame_index longest → ∃ anim, create ops data = .ok anim) := by
  obtain ⟨h1, h2, h3⟩ := C29_outcome_partial ops data longest hn (Nat.lt_of_le_of_lt hlt (by decide))
  obtain ⟨f, v⟩ := lastFrame_val hlt
  have z : (ofBits 0).Fin ∧ (ofBits 0).val = 0 := by
    refine ⟨by decide, ?_⟩
    rw [← value_eq]; decide +kernel
  have key : Reaches data.final_frame_index longest ↔ ops.ge data.final_frame_index 0 = true ∧
      ops.ge data.final_frame_index (ops.lastFrame longest) = true := by
    rw [ge_iff z.1, ge_iff f, z.2, v]
    exact both_iff
  refine ⟨h1, fun hs hr => h2 hs ?_, fun hs hr => h3 hs (key.mp hr).1 (key.mp hr).2⟩
  rw [key] at hr
  by_cases h0 : ops.ge data.final_frame_index 0 = true
  · right
    simpa using fun h => hr ⟨h0, h⟩
  · left
    simpa using h0

example : Longest smallAnim.groups 2 ∧ SupportedVersion smallAnim ∧ Reaches 0x3f800000 2 ∧ ¬ Reaches 0x3f7fffff 2 ∧
    ¬ Reaches 0x7fc00000 2 ∧ ¬ Reaches 0xbf800000 0 ∧ Reaches 0x80000000 1 := by
  refine ⟨⟨by decide +kernel, .inr ⟨_, List.mem_cons_self, rfl⟩⟩, by unfold SupportedVersion; decide, ?_⟩
  unfold Reaches
  decide +kernel

/-- Beyond the limit the comparison is not exact: 16777219 frames and the final frame index 16777218 are rejected. -/
theorem C29_beyond_limit : ∃ data, Longest data.groups 16777219 ∧ SupportedVersion data ∧
    Reaches data.final_frame_index 16777219 ∧
    create ops data = .error (.invalidFinalFrameIndex data.final_frame_index) := by
  obtain ⟨vs, hvs⟩ : ∃ vs : List F32, vs.length = 16777219 := ⟨List.replicate 16777219 0, List.length_replicate⟩
  have hlen : (TrackValues.float vs).len = 16777219 := hvs
  let data : AnimData := ⟨2, 0, 0x4b800001, [⟨.Visibility, [⟨"a", [⟨"b", false, ⟨false, false, false, false⟩, .float vs⟩]⟩]⟩]⟩
  have hl : Longest data.groups 16777219 := by
    refine ⟨?_, .inr ⟨_, List.mem_cons_self, hlen⟩⟩
    intro t ht
    have : t = ⟨"b", false, ⟨false, false, false, false⟩, .float vs⟩ := List.mem_singleton.mp ht
    rw [this]
    exact Nat.le_of_eq hlen
  refine ⟨data, hl, ⟨rfl, .inl rfl⟩, ?_, ?_⟩
  · show Reaches 0x4b800001 16777219
    unfold Reaches
    decide +kernel
  · exact (C29_outcome_partial ops data 16777219 hl (by decide)).2.1 ⟨rfl, .inl rfl⟩ (.inr (by
      show ops.ge 0x4b800001 (ops.lastFrame 16777219) = false
      decide +kernel))

/-! ## C52 -/

/-- The components of a track which are stored on their own; the last component of a rotation is not. -/
def channels : TrackValues → List (List F32)
  | .float vs => [vs]
  | .vector4 vs => [vs.map (·.x), vs.map (·.y), vs.map (·.z), vs.map (·.w)]
  | .uvTransform vs => [vs.map (·.scale_u), vs.map (·.scale_v), vs.map (·.rotation), vs.map (·.translate_u),
      vs.map (·.translate_v)]
  | .transform vs => [vs.map (·.scale.x), vs.map (·.scale.y), vs.map (·.scale.z),
      vs.map (·.rotation.x), vs.map (·.rotation.y), vs.map (·.rotation.z),
      vs.map (·.translation.x), vs.map (·.translation.y), vs.map (·.translation.z)]
  | _ => []

/-- The frame shown at time `k`: the last one after the end. -/
def shown (us : List F32) (k : Nat) : Option F32 := us[min k (us.length - 1)]?

/-- The frames `us` of a component are close to the original frames `vs`: with a distance of at most `R` between the
values and values of at most `M`, the error is at most 5 of the `2 ^ 24 - 1` steps of the range and one unit in the last
place of `M`. The smallest and the largest values are exact. No value is below the smallest or above the largest. -/
def Close (vs us : List F32) : Prop :=
  ∀ R M : ℚ, (∀ v ∈ vs, Finite v ∧ |value v| ≤ M) → (∀ v ∈ vs, ∀ v' ∈ vs, value v - value v' ≤ R) → R ≤ maxFinite →
    ∀ (k : Nat) (v : F32), vs[k]? = some v → ∃ u, shown us k = some u ∧
      Finite u ∧ |value u - value v| ≤ 5 * R / (2 ^ 24 - 1) + M / 2 ^ 23 + 1 / 2 ^ 149 ∧
      ((∀ v' ∈ vs, value v ≤ value v') ∨ (∀ v' ∈ vs, value v' ≤ value v) → value u = value v) ∧
      (∃ v' ∈ vs, value v' ≤ value u) ∧ (∃ v' ∈ vs, value u ≤ value v')

theorem quant_channel {vs : List F32} {R M : ℚ} (hf : ∀ v ∈ vs, Finite v ∧ |value v| ≤ M)
    (hR : ∀ v ∈ vs, ∀ v' ∈ vs, value v - value v' ≤ R) (hRm : R ≤ maxFinite) {v : F32} (hv : v ∈ vs) :
    let u := quantF32 ops (findMinF32 ops vs) (findMaxF32 ops vs) (findMinF32 ops vs) v
    Finite u ∧ |value u - value v| ≤ 5 * R / (2 ^ 24 - 1) + M / 2 ^ 23 + 1 / 2 ^ 149 ∧
      ((∀ v' ∈ vs, value v ≤ value v') ∨ (∀ v' ∈ vs, value v' ≤ value v) → value u = value v) ∧
      (∃ v' ∈ vs, value v' ≤ value u) ∧ (∃ v' ∈ vs, value u ≤ value v') := by
  have hF : ∀ v ∈ vs, (ofBits v).Fin := fun v hv => (finite_iff v).mp (hf v hv).1
  obtain ⟨l1, l2⟩ := findMin_spec hv hF
  obtain ⟨g1, g2⟩ := findMax_spec hv hF
  generalize findMinF32 ops vs = lo at *
  generalize findMaxF32 ops vs = hi at *
  intro u
  have hR' := hR hi g1 lo l1
  have hl := (hf lo l1).2
  have hh := (hf hi g1).2
  have hM' : ∀ x ∈ vs, |value x| ≤ min M maxFinite := fun x hx => le_min (hf x hx).2 (abs_value_le (hf x hx).1)
  have hl' := hM' lo l1
  have hh' := hM' hi g1
  simp only [value_eq] at *
  have := quant_close (hF v hv) (hF lo l1) (hF hi g1) (l2 v hv) (g2 v hv) hR'
    (lt_of_le_of_lt hRm maxFinite_lt_limit) hl' hh' (by rw [← maxFinite_eq]; exact min_le_right _ _)
  refine ⟨(finite_iff u).mpr this.1, this.2.1.trans ?_, ?_, ⟨lo, l1, this.2.2.2.1⟩, ⟨hi, g1, this.2.2.2.2⟩⟩
  · have : min M maxFinite / 2 ^ 23 ≤ M / 2 ^ 23 := by gcongr; exact min_le_left _ _
    linarith
  · rintro (h | h)
    · exact this.2.2.1 (.inl (le_antisymm (h lo l1) (l2 v hv)))
    · exact this.2.2.1 (.inr (le_antisymm (g2 v hv) (h hi g1)))

theorem close_quant (n : Nat) (vs : List α) (c : α → F32) (q : α → F32)
    (hn : n = 0 → ops.eq (findMinF32 ops (vs.map c)) (findMaxF32 ops (vs.map c)) = true)
    (hq : ∀ a ∈ vs, q a = quantF32 ops (findMinF32 ops (vs.map c)) (findMaxF32 ops (vs.map c))
      (findMinF32 ops (vs.map c)) (c a)) : Close (vs.map c) ((storedFrames n vs).map q) := by
  intro R M hf hR hRm k v hv
  rw [List.getElem?_map, Option.map_eq_some_iff] at hv
  obtain ⟨a, ha, rfl⟩ := hv
  have hmem : a ∈ vs := List.mem_of_getElem? ha
  have := quant_channel hf hR hRm (List.mem_map_of_mem hmem)
  refine ⟨_, ?_, this⟩
  by_cases h0 : n = 0
  · cases vs with
    | nil => cases hmem
    | cons b vs =>
      have hb := hq b List.mem_cons_self
      simp only [shown, storedFrames, h0, if_true, List.take_succ_cons, List.take_zero, List.map_cons, List.map_nil,
        List.length_singleton, Nat.sub_self, Nat.min_zero, List.getElem?_cons_zero, Option.some.injEq]
      simp only [List.map_cons] at hb hn
      rw [hb]
      unfold quantF32
      rw [if_pos (hn h0), if_pos (hn h0)]
  · have hk : k < vs.length := (List.getElem?_eq_some_iff.mp ha).1
    simp only [shown, storedFrames, h0, if_false, List.length_map]
    rw [show min k (vs.length - 1) = k by omega, List.getElem?_map, ha, Option.map_some, hq a hmem]

theorem Close.refl (vs : List F32) : Close vs vs := by
  intro R M hf hR _ k v hv
  have hk : k < vs.length := (List.getElem?_eq_some_iff.mp hv).1
  have hm := List.mem_of_getElem? hv
  have hM : 0 ≤ M := (abs_nonneg _).trans (hf v hm).2
  have hR : 0 ≤ R := by have := hR v hm v hm; rwa [sub_self] at this
  refine ⟨v, by rw [shown, show min k (vs.length - 1) = k by omega, hv], (hf v hm).1, ?_, fun _ => rfl,
    ⟨v, hm, le_rfl⟩, ⟨v, hm, le_rfl⟩⟩
  rw [sub_self, abs_zero]
  positivity

/-- A component with the same values. -/
theorem Close.of_same {vs vs' us : List F32} (h : Close vs us) (hl : vs'.length = vs.length)
    (hs : ∀ (k : Nat) (v v' : F32), vs[k]? = some v → vs'[k]? = some v' → value v = value v' ∧ (Finite v' → Finite v)) :
    Close vs' us := by
  intro R M hf hR hRm k v' hv'
  have hk : k < vs.length := by rw [← hl]; exact (List.getElem?_eq_some_iff.mp hv').1
  obtain ⟨v, hv⟩ : ∃ v, vs[k]? = some v := ⟨_, List.getElem?_eq_getElem hk⟩
  have tr : ∀ w ∈ vs, ∃ w' ∈ vs', value w = value w' ∧ (Finite w' → Finite w) := by
    intro w hw
    obtain ⟨i, hi, rfl⟩ := List.getElem_of_mem hw
    have hi' : i < vs'.length := by omega
    exact ⟨vs'[i], List.getElem_mem hi', hs i _ _ (List.getElem?_eq_getElem hi) (List.getElem?_eq_getElem hi')⟩
  obtain ⟨e, _⟩ := hs k v v' hv hv'
  obtain ⟨u, hu, this⟩ := h R M (fun w hw => by
      obtain ⟨w', hw', e, hfin⟩ := tr w hw
      rw [e]; exact ⟨hfin (hf w' hw').1, (hf w' hw').2⟩)
    (fun w hw x hx => by
      obtain ⟨w', hw', e, _⟩ := tr w hw
      obtain ⟨x', hx', e', _⟩ := tr x hx
      rw [e, e']; exact hR w' hw' x' hx') hRm k v hv
  rw [e] at this
  refine ⟨u, hu, this.1, this.2.1, fun hm => this.2.2.1 ?_, ?_, ?_⟩
  rotate_left
  · obtain ⟨w, hw, h1⟩ := this.2.2.2.1
    obtain ⟨w', hw', e, _⟩ := tr w hw
    exact ⟨w', hw', e ▸ h1⟩
  · obtain ⟨w, hw, h1⟩ := this.2.2.2.2
    obtain ⟨w', hw', e, _⟩ := tr w hw
    exact ⟨w', hw', e ▸ h1⟩
  rcases hm with hm | hm
  · left; intro w hw
    obtain ⟨w', hw', e, _⟩ := tr w hw
    rw [e]; exact hm w' hw'
  · right; intro w hw
    obtain ⟨w', hw', e, _⟩ := tr w hw
    rw [e]; exact hm w' hw'

theorem same_of_eq {x y : F32} (h : ops.eq x y = true) : value x = value y ∧ (Finite y → Finite x) := by
  have h' : (ofBits x).eq (ofBits y) = true := h
  have hn : (ofBits x).isNan = false ∧ (ofBits y).isNan = false := by
    unfold Fl.eq at h'
    simp only [Bool.and_eq_true, Bool.not_eq_true'] at h'
    exact ⟨h'.1.1, h'.1.2⟩
  have hv := (Fl.eq_iff hn.1 hn.2).mp h'
  refine ⟨by rw [value_eq, value_eq, hv], fun hf => ?_⟩
  rw [finite_iff] at hf ⊢
  have : |(ofBits x).val| ≤ |(ofBits y).val| := by rw [hv]
  exact Nat.lt_of_le_of_lt (Fl.abs_val_le_iff.mp this) hf

theorem close_same (n : Nat) (vs : List α) (c c' : α → F32) (q : α → F32)
    (hn : n = 0 → ops.eq (findMinF32 ops (vs.map c)) (findMaxF32 ops (vs.map c)) = true)
    (hc : ∀ a ∈ vs, value (c a) = value (c' a) ∧ (Finite (c' a) → Finite (c a)))
    (hq : ∀ a ∈ vs, q a = quantF32 ops (findMinF32 ops (vs.map c)) (findMaxF32 ops (vs.map c))
      (findMinF32 ops (vs.map c)) (c a)) : Close (vs.map c') ((storedFrames n vs).map q) := by
  refine (close_quant n vs c q hn hq).of_same (by simp) ?_
  intro k v v' hv hv'
  rw [List.getElem?_map, Option.map_eq_some_iff] at hv hv'
  obtain ⟨a, ha, rfl⟩ := hv
  obtain ⟨b, hb, rfl⟩ := hv'
  rw [ha] at hb
  cases hb
  exact hc a (List.mem_of_getElem? ha)

theorem minVector3 (vs : List Vector3) : findMinVector3 ops vs =
    ⟨findMinF32 ops (vs.map (·.x)), findMinF32 ops (vs.map (·.y)), findMinF32 ops (vs.map (·.z))⟩ := by
  have hx := reduceOr_map (f := Vector3.fmin ops) (g := ops.min) (c := (·.x)) (fun _ _ => rfl) ⟨0, 0, 0⟩ vs
  have hy := reduceOr_map (f := Vector3.fmin ops) (g := ops.min) (c := (·.y)) (fun _ _ => rfl) ⟨0, 0, 0⟩ vs
  have hz := reduceOr_map (f := Vector3.fmin ops) (g := ops.min) (c := (·.z)) (fun _ _ => rfl) ⟨0, 0, 0⟩ vs
  unfold findMinVector3 findMinF32
  rw [← hx, ← hy, ← hz]

theorem maxVector3 (vs : List Vector3) : findMaxVector3 ops vs =
    ⟨findMaxF32 ops (vs.map (·.x)), findMaxF32 ops (vs.map (·.y)), findMaxF32 ops (vs.map (·.z))⟩ := by
  have hx := reduceOr_map (f := Vector3.fmax ops) (g := ops.max) (c := (·.x)) (fun _ _ => rfl) ⟨0, 0, 0⟩ vs
  have hy := reduceOr_map (f := Vector3.fmax ops) (g := ops.max) (c := (·.y)) (fun _ _ => rfl) ⟨0, 0, 0⟩ vs
  have hz := reduceOr_map (f := Vector3.fmax ops) (g := ops.max) (c := (·.z)) (fun _ _ => rfl) ⟨0, 0, 0⟩ vs
  unfold findMaxVector3 findMaxF32
  rw [← hx, ← hy, ← hz]

theorem minVector4 (vs : List Vector4) : findMinVector4 ops vs =
    ⟨findMinF32 ops (vs.map (·.x)), findMinF32 ops (vs.map (·.y)), findMinF32 ops (vs.map (·.z)),
      findMinF32 ops (vs.map (·.w))⟩ := by
  have hx := reduceOr_map (f := Vector4.fmin ops) (g := ops.min) (c := (·.x)) (fun _ _ => rfl) ⟨0, 0, 0, 0⟩ vs
  have hy := reduceOr_map (f := Vector4.fmin ops) (g := ops.min) (c := (·.y)) (fun _ _ => rfl) ⟨0, 0, 0, 0⟩ vs
  have hz := reduceOr_map (f := Vector4.fmin ops) (g := ops.min) (c := (·.z)) (fun _ _ => rfl) ⟨0, 0, 0, 0⟩ vs
  have hw := reduceOr_map (f := Vector4.fmin ops) (g := ops.min) (c := (·.w)) (fun _ _ => rfl) ⟨0, 0, 0, 0⟩ vs
  unfold findMinVector4 findMinF32
  rw [← hx, ← hy, ← hz, ← hw]

theorem maxVector4 (vs : List Vector4) : findMaxVector4 ops vs =
    ⟨findMaxF32 ops (vs.map (·.x)), findMaxF32 ops (vs.map (·.y)), findMaxF32 ops (vs.map (·.z)),
      findMaxF32 ops (vs.map (·.w))⟩ := by
  have hx := reduceOr_map (f := Vector4.fmax ops) (g := ops.max) (c := (·.x)) (fun _ _ => rfl) ⟨0, 0, 0, 0⟩ vs
  have hy := reduceOr_map (f := Vector4.fmax ops) (g := ops.max) (c := (·.y)) (fun _ _ => rfl) ⟨0, 0, 0, 0⟩ vs
  have hz := reduceOr_map (f := Vector4.fmax ops) (g := ops.max) (c := (·.z)) (fun _ _ => rfl) ⟨0, 0, 0, 0⟩ vs
  have hw := reduceOr_map (f := Vector4.fmax ops) (g := ops.max) (c := (·.w)) (fun _ _ => rfl) ⟨0, 0, 0, 0⟩ vs
  unfold findMaxVector4 findMaxF32
  rw [← hx, ← hy, ← hz, ← hw]

theorem storedFrames_map (n : Nat) (f : α → β) (vs : List α) : storedFrames n (vs.map f) = (storedFrames n vs).map f := by
  unfold storedFrames; split <;> simp

/-- Corresponding components. -/
def AllClose (a b : TrackValues) : Prop :=
  (channels a).length = (channels b).length ∧
    ∀ (i : Nat) (vs us : List F32), (channels a)[i]? = some vs → (channels b)[i]? = some us → Close vs us

theorem allClose_of {a b : TrackValues} {as bs : List (List F32)} (ha : channels a = as) (hb : channels b = bs)
    (h : List.Forall₂ Close as bs) : AllClose a b := by
  subst ha hb
  refine ⟨h.length_eq, fun i vs us h1 h2 => ?_⟩
  have := List.forall₂_iff_get.mp h
  obtain ⟨l1, e1⟩ := List.getElem?_eq_some_iff.mp h1
  obtain ⟨l2, e2⟩ := List.getElem?_eq_some_iff.mp h2
  have h3 := this.2 i l1 l2
  simp only [List.get_eq_getElem, e1, e2] at h3
  exact h3

theorem quantized_close (values : TrackValues) (cs : Bool) : AllClose values (values.quantized ops cs).1 := by
  cases values with
  | patternIndex vs => exact ⟨rfl, fun i vs us h => by simp [channels] at h⟩
  | boolean vs => exact ⟨rfl, fun i vs us h => by simp [channels] at h⟩
  | float vs =>
    refine allClose_of (as := [vs]) (bs := [_]) rfl rfl (.cons ?_ .nil)
    have := close_quant ((TrackValues.float vs).bits ops cs) vs id (floatQuant ops vs) (by
      intro h; rw [List.map_id]; exact (bits_eq_zero_iff ops _ cs).mp h) (by
      intro a _; simp only [List.map_id, id]; rfl)
    rw [List.map_id] at this
    exact this
  | vector4 vs =>
    refine allClose_of (as := [_, _, _, _]) (bs := [_, _, _, _]) rfl rfl ?_
    simp only [List.map_map]
    have hz : (TrackValues.vector4 vs).bits ops cs = 0 → _ := (bits_eq_zero_iff ops _ cs).mp
    simp only [ConstantTrack, minVector4, maxVector4] at hz
    refine .cons (close_quant _ vs _ _ (fun h => (hz h).1) ?_) (.cons (close_quant _ vs _ _ (fun h => (hz h).2.1) ?_)
      (.cons (close_quant _ vs _ _ (fun h => (hz h).2.2.1) ?_)
      (.cons (close_quant _ vs _ _ (fun h => (hz h).2.2.2) ?_) .nil))) <;>
    · intro a _
      simp only [Function.comp, vector4Quant, quantVector4, minVector4, maxVector4]
  | uvTransform vs =>
    refine allClose_of (as := [_, _, _, _, _]) (bs := [_, _, _, _, _]) rfl rfl ?_
    simp only [List.map_map]
    have hz : (TrackValues.uvTransform vs).bits ops cs = 0 → _ := (bits_eq_zero_iff ops _ cs).mp
    simp only [ConstantTrack] at hz
    refine .cons (close_quant _ vs _ _ (fun h => (hz h).1) ?_) (.cons ?_
      (.cons (close_quant _ vs _ _ (fun h => (hz h).2.2.1) ?_) (.cons (close_quant _ vs _ _ (fun h => (hz h).2.2.2.1) ?_)
      (.cons (close_quant _ vs _ _ (fun h => (hz h).2.2.2.2) ?_) .nil))))
    · intro a _; rfl
    · cases hu : (CompressionFlags.fromTrack ops (.uvTransform vs)).uniformScale with
      | true =>
        refine close_same _ vs (·.scale_u) (·.scale_v) _ (fun h => (hz h).1) ?_ ?_
        · intro a ha
          simp only [CompressionFlags.fromTrack, (ofUniform_bits _).2.1, List.all_eq_true] at hu
          exact same_of_eq (hu a ha)
        · intro a _
          simp only [Function.comp, uvQuant, quantUv, hu, if_true]; rfl
      | false =>
        refine close_quant _ vs _ _ (fun h => ?_) ?_
        · refine (hz h).2.1.resolve_right fun h => ?_
          simp only [CompressionFlags.fromTrack, (ofUniform_bits _).2.1, List.all_eq_false] at hu
          obtain ⟨t, ht, hne⟩ := hu
          exact hne (h t ht)
        intro a _
        simp only [Function.comp, uvQuant, quantUv, hu, Bool.false_eq_true, if_false]; rfl
    · intro a _; rfl
    · intro a _; rfl
    · intro a _; rfl
  | transform vs =>
    refine allClose_of (as := [_, _, _, _, _, _, _, _, _]) (bs := [_, _, _, _, _, _, _, _, _]) rfl rfl ?_
    simp only [List.map_map, storedFrames_map]
    have hmap : ∀ {β : Type} (c : UncompressedTransform → β) (c' : Transform → β),
        (∀ t, c (UncompressedTransform.fromTransform t cs) = c' t) →
        (vs.map (UncompressedTransform.fromTransform · cs)).map c = vs.map c' := by
      intro β c c' h
      rw [List.map_map]
      exact List.map_congr_left fun t _ => h t
    have hmin : transformMin ops (vs.map (UncompressedTransform.fromTransform · cs)) =
        ⟨findMinVector3 ops (vs.map (·.scale)), findMinVector4 ops (vs.map (·.rotation)),
          findMinVector3 ops (vs.map (·.translation))⟩ := by
      unfold transformMin
      rw [hmap (·.scale) (·.scale) fun _ => rfl, hmap (·.rotation) (·.rotation) fun _ => rfl,
        hmap (·.translation) (·.translation) fun _ => rfl]
    have hmax : transformMax ops (vs.map (UncompressedTransform.fromTransform · cs)) =
        ⟨findMaxVector3 ops (vs.map (·.scale)), findMaxVector4 ops (vs.map (·.rotation)),
          findMaxVector3 ops (vs.map (·.translation))⟩ := by
      unfold transformMax
      rw [hmap (·.scale) (·.scale) fun _ => rfl, hmap (·.rotation) (·.rotation) fun _ => rfl,
        hmap (·.translation) (·.translation) fun _ => rfl]
    have hz : ∀ {P : Prop}, (TrackValues.transform vs).bits ops cs = 0 → P := fun h =>
      ((bits_eq_zero_iff ops (.transform vs) cs).mp h).elim
    refine .cons ?_ (.cons ?_ (.cons ?_ (.cons (close_quant _ vs _ _ hz ?_) (.cons (close_quant _ vs _ _ hz ?_)
      (.cons (close_quant _ vs _ _ hz ?_) (.cons (close_quant _ vs _ _ hz ?_) (.cons (close_quant _ vs _ _ hz ?_)
      (.cons (close_quant _ vs _ _ hz ?_) .nil))))))))
    case refine_4 | refine_5 | refine_6 | refine_7 | refine_8 | refine_9 =>
      intro a _
      simp only [Function.comp, transformQuant, quantTransform, hmin, hmax, minVector3, maxVector3, minVector4,
        maxVector4, List.map_map, quantRotation, quantVector3, Vector4.xyz]
      rfl
    all_goals
      cases hu : (CompressionFlags.fromTrack ops (.transform vs)).uniformScale
      case false =>
        refine close_quant _ vs _ _ hz ?_
        intro a _
        simp only [Function.comp, transformQuant, quantTransform, hmin, hmax, minVector3, maxVector3, minVector4,
          maxVector4, List.map_map, quantVector3, Bool.false_eq_true, if_false]
        rfl
      case true =>
        simp only [CompressionFlags.fromTrack, (ofUniform_bits _).2.1, List.all_eq_true, Bool.and_eq_true] at hu
        refine close_same _ vs (·.scale.x) _ _ hz ?_ ?_
        · intro a ha
          have h1 := same_of_eq (hu a ha).1
          have h2 := same_of_eq (hu a ha).2
          first
          | exact ⟨rfl, id⟩
          | exact h1
          | exact ⟨h1.1.trans h2.1, h1.2 ∘ h2.2⟩
        · intro a _
          simp only [Function.comp, transformQuant, quantTransform, hmin, hmax, minVector3, maxVector3, minVector4,
            maxVector4, List.map_map, quantVector3, if_true]
          rfl

/-- A compressed track is read back with values close to the original ones. -/
theorem C52_track (values : TrackValues) (cs : Bool) :
    ∃ b, values.write ops .Compressed cs = .ok b ∧ ∀ more, ∃ out cs',
      readTrackValues ops (b ++ more) ⟨values.trackType, .Compressed⟩ values.len = .ok (out, cs') ∧
      out.trackType = values.trackType ∧ AllClose values out := by
  obtain ⟨b, hw, _, hr⟩ := values.compressed ops cs
  exact ⟨b, hw, fun more => ⟨_, _, hr more, by cases values <;> rfl, quantized_close values cs⟩⟩

/-- All tracks of an animation are read back with values close to the original ones. -/
theorem C52_animation (data : AnimData) (anim : Anim) (h : create ops data = .ok anim)
    (hl : ∀ t ∈ dataTracks data.groups, t.values.len < 2 ^ 32)
    (hb : ∀ groups buffer, parts anim = some (groups, buffer) → buffer.length < 2 ^ 32) :
    ∃ f, ofAnim ops anim = some (.ok { data with groups := mapTracks f data.groups }) ∧
      ∀ t, (f t).values.trackType = t.values.trackType ∧ AllClose t.values (f t).values := by
  obtain ⟨f, hf, ho⟩ := C28_structure_preserved ops data anim h hl hb
  refine ⟨f, ho, fun t => ⟨(hf t).type, ?_⟩⟩
  by_cases hc : inferOptimalCompressionType t.values = .Compressed
  · obtain ⟨b, hw, hr⟩ := (hf t).decoded
    obtain ⟨b', hw', hr'⟩ := C52_track t.values t.compensate_scale
    rw [hc] at hw hr
    rw [hw] at hw'
    cases hw'
    obtain ⟨out, cs', hr', _, hclose⟩ := hr' []
    rw [List.append_nil, hr] at hr'
    cases hr'
    exact hclose
  · rw [(hf t).exact hc]
    exact ⟨rfl, fun i vs us h1 h2 => by rw [h1] at h2; cases h2; exact Close.refl vs⟩

/-- 0, 1, ... 10 -/
def elevenFloats : List F32 :=
  [0, 0x3f800000, 0x40000000, 0x40400000, 0x40800000, 0x40a00000, 0x40c00000, 0x40e00000, 0x41000000, 0x41100000,
    0x41200000]

example : (∀ v ∈ elevenFloats, Finite v ∧ |value v| ≤ 10) ∧
    (∀ v ∈ elevenFloats, ∀ v' ∈ elevenFloats, value v - value v' ≤ 10) ∧ (10 : ℚ) ≤ maxFinite ∧
    inferOptimalCompressionType (.float elevenFloats) = .Compressed := by decide +kernel

/-- Without the limit for the range: between -3e38 and 3e38, zero is read back as -3e38. -/
theorem C52_huge_range : ∃ vs us b, (∀ v ∈ vs, Finite v) ∧
    TrackValues.write ops (.float vs) .Compressed false = .ok b ∧
    readTrackValues ops b ⟨.Float, .Compressed⟩ vs.length = .ok (.float us, false) ∧
    vs[1]? = some 0 ∧ us[1]? = some 0xff61b1e6 ∧ value 0 = 0 ∧ value 0xff61b1e6 < -2 ^ 127 := by
  obtain ⟨b, hw, _, hr⟩ := (TrackValues.float [0xff61b1e6, 0, 0x7f61b1e6]).compressed ops false
  have := hr []
  rw [List.append_nil] at this
  exact ⟨_, _, b, by decide +kernel, hw, this, rfl, by decide +kernel, by decide +kernel, by decide +kernel⟩

end Verif.Props
