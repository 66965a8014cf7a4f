import Verif.Formats.VectorOps
import Verif.Data.Compression
import Verif.Props.MeshLayout
/-!
C83: vectors and matrices.
-/

namespace Verif.Props
open Verif

/-! ## Arrays and tuples -/

/-- The conversions of vectors do not change or swap components: both ways give back the same, and component `i` of the array
is component `i` of the tuple. -/
theorem C83_vector3 (v : Vector3) (a : Vector F32 3) (x y z w : F32) :
    Vector3.ofArray v.toArray = v ∧ (Vector3.ofArray a).toArray = a ∧ Vector3.ofTuple v.toTuple = v ∧
    (Vector3.ofTuple (x, y, z)).toTuple = (x, y, z) ∧ (Vector3.new x y z).toArray = #v[x, y, z] ∧
    (Vector3.new x y z).toTuple = (x, y, z) ∧ (v.extend w).xyz = v ∧ (v.extend w).w = w := by
  refine ⟨rfl, ?_, rfl, rfl, rfl, rfl, rfl, rfl⟩
  apply Vector.ext
  intro i hi
  match i, hi with
  | 0, _ => rfl
  | 1, _ => rfl
  | 2, _ => rfl

theorem C83_vector4 (v : Vector4) (a : Vector F32 4) (x y z w : F32) :
    Vector4.ofArray v.toArray = v ∧ (Vector4.ofArray a).toArray = a ∧ Vector4.ofTuple v.toTuple = v ∧
    (Vector4.ofTuple (x, y, z, w)).toTuple = (x, y, z, w) ∧ (Vector4.new x y z w).toArray = #v[x, y, z, w] ∧
    (Vector4.new x y z w).toTuple = (x, y, z, w) ∧ v.xyz.extend v.w = v := by
  refine ⟨rfl, ?_, rfl, rfl, rfl, rfl, rfl⟩
  apply Vector.ext
  intro i hi
  match i, hi with
  | 0, _ => rfl
  | 1, _ => rfl
  | 2, _ => rfl
  | 3, _ => rfl

/-! ## Matrices in files -/

theorem f32_read_iff (b : Bytes) (p : Nat) (x : F32) (q : Nat) :
    f32.read b p = .ok (x, q) ↔ q = p + 4 ∧ NumberAt b p 4 x.toNat := u32_numbers.read b p x q

theorem pair_read_iff {c : Codec α} {d : Codec β} {b : Bytes} {p q : Nat} {v : α × β} :
    (pair c d).read b p = .ok (v, q) ↔ ∃ r, c.read b p = .ok (v.1, r) ∧ d.read b r = .ok (v.2, q) := by
  obtain ⟨x, y⟩ := v
  simp only [pair]
  cases h : c.read b p with
  | error e => simp
  | ok r =>
    obtain ⟨x', r⟩ := r
    simp only
    cases h2 : d.read b r with
    | error e => simp [h2]
    | ok s => grind

theorem iso_read_iff {a : Codec α} {out : β → α} {back : α → β} (h : ∀ v, back (out v) = v) (h' : ∀ x, out (back x) = x)
    {b : Bytes} {p q : Nat} {v : β} : (struct n (iso a out back h)).read b p = .ok (v, q) ↔ a.read b p = .ok (out v, q) := by
  simp only [struct, iso]
  cases hr : a.read b p with
  | error e => simp
  | ok r =>
    obtain ⟨x, r⟩ := r
    simp only [Except.ok.injEq, Prod.mk.injEq]
    constructor
    · rintro ⟨rfl, rfl⟩; exact ⟨(h' x).symm, rfl⟩
    · rintro ⟨rfl, rfl⟩; exact ⟨h v, rfl⟩

theorem vector3_read_iff {b : Bytes} {p q : Nat} {v : Vector3} : Vector3.codec.read b p = .ok (v, q) ↔
    q = p + 12 ∧ NumberAt b p 4 v.x.toNat ∧ NumberAt b (p + 4) 4 v.y.toNat ∧ NumberAt b (p + 8) 4 v.z.toNat := by
  refine (iso_read_iff _ (fun _ => rfl)).trans ?_
  simp [pair_read_iff, f32_read_iff, and_assoc, and_left_comm, add_assoc]

theorem vector4_read_iff {b : Bytes} {p q : Nat} {v : Vector4} : Vector4.codec.read b p = .ok (v, q) ↔
    q = p + 16 ∧ NumberAt b p 4 v.x.toNat ∧ NumberAt b (p + 4) 4 v.y.toNat ∧ NumberAt b (p + 8) 4 v.z.toNat ∧
      NumberAt b (p + 12) 4 v.w.toNat := by
  refine (iso_read_iff _ (fun _ => rfl)).trans ?_
  simp [pair_read_iff, f32_read_iff, and_assoc, and_left_comm, add_assoc]

/-- A matrix in a file: float `j` of column `i` is at byte `16 i + 4 j`, and `to_cols_array()[i][j]` shows it. -/
theorem C83_matrix4x4 (b : Bytes) (p q : Nat) (m : Matrix4x4) : Matrix4x4.codec.read b p = .ok (m, q) ↔
    q = p + 64 ∧ ∀ (i : Fin 4) (j : Fin 4), NumberAt b (p + 16 * i + 4 * j) 4 (m.toColsArray[i])[j].toNat := by
  refine (iso_read_iff _ (fun _ => rfl)).trans ?_
  simp only [pair_read_iff, vector4_read_iff, Fin.forall_fin_succ, IsEmpty.forall_iff, and_true]
  constructor
  · rintro ⟨_, ⟨rfl, a0, a1, a2, a3⟩, _, ⟨rfl, b0, b1, b2, b3⟩, _, ⟨rfl, c0, c1, c2, c3⟩, rfl, d0, d1, d2, d3⟩
    exact ⟨rfl, ⟨a0, a1, a2, a3⟩, ⟨b0, b1, b2, b3⟩, ⟨c0, c1, c2, c3⟩, d0, d1, d2, d3⟩
  · rintro ⟨rfl, ⟨a0, a1, a2, a3⟩, ⟨b0, b1, b2, b3⟩, ⟨c0, c1, c2, c3⟩, d0, d1, d2, d3⟩
    exact ⟨_, ⟨rfl, a0, a1, a2, a3⟩, _, ⟨rfl, b0, b1, b2, b3⟩, _, ⟨rfl, c0, c1, c2, c3⟩, rfl, d0, d1, d2, d3⟩

theorem C83_matrix3x3 (b : Bytes) (p q : Nat) (m : Matrix3x3) : Matrix3x3.codec.read b p = .ok (m, q) ↔
    q = p + 36 ∧ ∀ (i : Fin 3) (j : Fin 3), NumberAt b (p + 12 * i + 4 * j) 4 (m.toColsArray[i])[j].toNat := by
  refine (iso_read_iff _ (fun _ => rfl)).trans ?_
  simp only [pair_read_iff, vector3_read_iff, Fin.forall_fin_succ, IsEmpty.forall_iff, and_true]
  constructor
  · rintro ⟨_, ⟨rfl, a0, a1, a2⟩, _, ⟨rfl, b0, b1, b2⟩, rfl, c0, c1, c2⟩
    exact ⟨rfl, ⟨a0, a1, a2⟩, ⟨b0, b1, b2⟩, c0, c1, c2⟩
  · rintro ⟨rfl, ⟨a0, a1, a2⟩, ⟨b0, b1, b2⟩, c0, c1, c2⟩
    exact ⟨_, ⟨rfl, a0, a1, a2⟩, _, ⟨rfl, b0, b1, b2⟩, rfl, c0, c1, c2⟩

/-- `from_cols_array` and `to_cols_array` are inverse to each other. -/
theorem C83_cols (m : Matrix3x3) (n : Matrix4x4) (a : Vector (Vector F32 3) 3) (c : Vector (Vector F32 4) 4) :
    Matrix3x3.fromColsArray m.toColsArray = m ∧ (Matrix3x3.fromColsArray a).toColsArray = a ∧
    Matrix4x4.fromColsArray n.toColsArray = n ∧ (Matrix4x4.fromColsArray c).toColsArray = c := by
  refine ⟨rfl, ?_, rfl, ?_⟩ <;>
  · apply Vector.ext
    intro i hi
    apply Vector.ext
    intro j hj
    rcases i with _ | _ | _ | _ | i <;> first | omega | skip
    all_goals rcases j with _ | _ | _ | _ | j <;> first | omega | rfl

/-! ## Smallest and largest components -/

/-- Not a number. -/
def IsNan (x : F32) : Prop := x.toNat % 2 ^ 31 > 255 * 2 ^ 23

/-- `x` is at most `y`: both are finite and their values are so, or `x` is minus infinity, or `y` is infinity. -/
def AtMost (x y : F32) : Prop :=
  x = 0xff800000 ∨ y = 0x7f800000 ∨ (Finite x ∧ Finite y ∧ value x ≤ value y)

/-- `m` is the smaller one of two components; a component which is not a number is ignored. -/
structure IsMin (x y m : F32) : Prop where
  numbers : ¬ IsNan x → ¬ IsNan y → (m = x ∨ m = y) ∧ AtMost m x ∧ AtMost m y
  left : IsNan x → m = y
  right : ¬ IsNan x → IsNan y → m = x

structure IsMax (x y m : F32) : Prop where
  numbers : ¬ IsNan x → ¬ IsNan y → (m = x ∨ m = y) ∧ AtMost x m ∧ AtMost y m
  left : IsNan x → m = y
  right : ¬ IsNan x → IsNan y → m = x

open Ieee in
theorem isNan_iff (x : F32) : IsNan x ↔ (ofBits x).isNan = true := by
  unfold IsNan Fl.isNan ofBits
  have : single.inf = 255 * 2 ^ 23 := by decide
  simp [this]

open Ieee in
theorem atMost_of_key {x y : F32} (hx : ¬ IsNan x) (hy : ¬ IsNan y) (h : (ofBits x).key ≤ (ofBits y).key) : AtMost x y := by
  by_cases h1 : x = 0xff800000
  · exact .inl h1
  by_cases h2 : y = 0x7f800000
  · exact .inr (.inl h2)
  refine .inr (.inr ?_)
  have hm : ∀ z : F32, (ofBits z).mag = z.toNat % 2 ^ 31 := fun _ => rfl
  have h1' : x.toNat ≠ 0xff800000 := fun e => h1 (UInt32.toNat_inj.mp e)
  have h2' : y.toNat ≠ 0x7f800000 := fun e => h2 (UInt32.toNat_inj.mp e)
  have lx := x.toNat_lt
  have ly := y.toNat_lt
  have hk := h
  unfold IsNan at hx hy
  unfold Fl.key at hk
  rw [hm, hm, neg_ofBits, neg_ofBits] at hk
  simp only [decide_eq_true_eq] at hk
  refine ⟨?_, ?_, ?_⟩
  · unfold Finite exponentBits; split at hk <;> split at hk <;> omega
  · unfold Finite exponentBits; split at hk <;> split at hk <;> omega
  · rw [value_eq, value_eq]; exact Fl.key_le_iff.mp h

open Ieee in
theorem isMin_ops (x y : F32) : IsMin x y (ops.min x y) where
  numbers hx hy := by
    show (toBits ((ofBits x).fmin (ofBits y)) = _ ∨ toBits ((ofBits x).fmin (ofBits y)) = _) ∧
      AtMost (toBits ((ofBits x).fmin (ofBits y))) _ ∧ AtMost (toBits ((ofBits x).fmin (ofBits y))) _
    rw [Fl.fmin, if_neg (mt (isNan_iff x).mpr hx), if_neg (mt (isNan_iff y).mpr hy)]
    split <;> rw [toBits_ofBits]
    · exact ⟨.inl rfl, atMost_of_key hx hx (le_refl _), atMost_of_key hx hy ‹_›⟩
    · exact ⟨.inr rfl, atMost_of_key hy hx (le_of_not_ge ‹_›), atMost_of_key hy hy (le_refl _)⟩
  left h := by
    show toBits ((ofBits x).fmin (ofBits y)) = y
    rw [Fl.fmin, if_pos ((isNan_iff x).mp h), toBits_ofBits]
  right h h' := by
    show toBits ((ofBits x).fmin (ofBits y)) = x
    rw [Fl.fmin, if_neg (fun e => h ((isNan_iff x).mpr e)), if_pos ((isNan_iff y).mp h'), toBits_ofBits]

open Ieee in
theorem isMax_ops (x y : F32) : IsMax x y (ops.max x y) where
  numbers hx hy := by
    show (toBits ((ofBits x).fmax (ofBits y)) = _ ∨ toBits ((ofBits x).fmax (ofBits y)) = _) ∧
      AtMost _ (toBits ((ofBits x).fmax (ofBits y))) ∧ AtMost _ (toBits ((ofBits x).fmax (ofBits y)))
    rw [Fl.fmax, if_neg (mt (isNan_iff x).mpr hx), if_neg (mt (isNan_iff y).mpr hy)]
    split <;> rw [toBits_ofBits]
    · exact ⟨.inl rfl, atMost_of_key hx hx (le_refl _), atMost_of_key hy hx ‹_›⟩
    · exact ⟨.inr rfl, atMost_of_key hx hy (le_of_not_ge ‹_›), atMost_of_key hy hy (le_refl _)⟩
  left h := by
    show toBits ((ofBits x).fmax (ofBits y)) = y
    rw [Fl.fmax, if_pos ((isNan_iff x).mp h), toBits_ofBits]
  right h h' := by
    show toBits ((ofBits x).fmax (ofBits y)) = x
    rw [Fl.fmax, if_neg (fun e => h ((isNan_iff x).mpr e)), if_pos ((isNan_iff y).mp h'), toBits_ofBits]

theorem C83_min3 (a b : Vector3) : IsMin a.x b.x (a.min b).x ∧ IsMin a.y b.y (a.min b).y ∧ IsMin a.z b.z (a.min b).z ∧
    IsMax a.x b.x (a.max b).x ∧ IsMax a.y b.y (a.max b).y ∧ IsMax a.z b.z (a.max b).z :=
  ⟨isMin_ops .., isMin_ops .., isMin_ops .., isMax_ops .., isMax_ops .., isMax_ops ..⟩

theorem C83_min4 (a b : Vector4) : IsMin a.x b.x (a.min b).x ∧ IsMin a.y b.y (a.min b).y ∧ IsMin a.z b.z (a.min b).z ∧
    IsMin a.w b.w (a.min b).w ∧ IsMax a.x b.x (a.max b).x ∧ IsMax a.y b.y (a.max b).y ∧ IsMax a.z b.z (a.max b).z ∧
    IsMax a.w b.w (a.max b).w :=
  ⟨isMin_ops .., isMin_ops .., isMin_ops .., isMin_ops .., isMax_ops .., isMax_ops .., isMax_ops .., isMax_ops ..⟩

/-! ## The identity -/

/-- Component `i` of the product of a matrix given by its columns with a vector, in exact arithmetic. -/
def product {n : Nat} (cols : Vector (Vector F32 n) n) (v : Fin n → ℚ) (i : Fin n) : ℚ :=
  ∑ j : Fin n, value (cols[j])[i] * v j

/-- The identity leaves all vectors as they are, and zero vectors are zero. -/
theorem C83_identity : (∀ v i, product Matrix3x3.identity.toColsArray v i = v i) ∧
    (∀ v i, product Matrix4x4.identity.toColsArray v i = v i) ∧
    (∀ i : Fin 3, value Vector3.ZERO.toArray[i] = 0) ∧ (∀ i : Fin 4, value Vector4.ZERO.toArray[i] = 0) := by
  have h0 : value 0 = 0 := by decide +kernel
  have h1 : value 0x3f800000 = 1 := by decide +kernel
  refine ⟨fun v i => ?_, fun v i => ?_, fun i => ?_, fun i => ?_⟩
  · simp only [product, Fin.sum_univ_succ]
    fin_cases i <;> simp [Matrix3x3.toColsArray, Matrix3x3.identity, Vector3.new, h0, h1]
  · simp only [product, Fin.sum_univ_succ]
    fin_cases i <;> simp [Matrix4x4.toColsArray, Matrix4x4.identity, Vector4.new, h0, h1]
  · fin_cases i <;> exact h0
  · fin_cases i <;> exact h0

/-! ## Concrete cases -/

/-- `[1, 2, NaN].min([-1, 3, 4])` is `[-1, 2, 4]`, `[1, 2, NaN].max([-1, 3, 4])` is `[1, 3, 4]`. -/
example : (Vector3.new 0x3f800000 0x40000000 0x7fc00000).min (Vector3.new 0xbf800000 0x40400000 0x40800000) =
    Vector3.new 0xbf800000 0x40000000 0x40800000 ∧
    (Vector3.new 0x3f800000 0x40000000 0x7fc00000).max (Vector3.new 0xbf800000 0x40400000 0x40800000) =
    Vector3.new 0x3f800000 0x40400000 0x40800000 ∧
    Finite 0x3f800000 ∧ Finite 0xbf800000 ∧ IsNan 0x7fc00000 ∧ ¬ IsNan 0x40800000 := by
  refine ⟨by decide +kernel, by decide +kernel, by decide +kernel, by decide +kernel, ?_, ?_⟩ <;> (unfold IsNan; decide)

/-- The bytes of a matrix with the columns `(0, 1, 2)`, `(3, 4, 5)`, `(6, 7, 8)` (bit patterns), after one other byte. -/
example : Matrix3x3.codec.read ([255] ++ (List.range 9).flatMap fun i => [UInt8.ofNat i, 0, 0, 0]) 1 =
    .ok (.fromColsArray #v[#v[0, 1, 2], #v[3, 4, 5], #v[6, 7, 8]], 37) := rfl

example : product (#v[#v[0x3f800000, 0], #v[0x40000000, 0x3f800000]] : Vector (Vector F32 2) 2) ![3, 5] 0 = 13 := by
  have h1 : value 0x3f800000 = 1 := by decide +kernel
  have h2 : value 0x40000000 = 2 := by decide +kernel
  simp [product, Fin.sum_univ_succ, h1, h2]
  norm_num

end Verif.Props
