import Verif.Data.CompareLaws
import Verif.Float.ValueSpec
import Verif.Props.DataFiles
/-!
# C113: Comparing data

`plus` and `notNan`, `nanFree` of Data/CompareSpec.lean say when `==` holds without mentioning how it is computed.
-/

namespace Verif.Props

open Ieee

/-- What a comparison of two values must be, if `plus` forgets the signs of zeros and `nanFree` says that there is no NaN. -/
def ComparesUpToZeros (eq : α → α → Bool) (plus : α → α) (nanFree : α → Bool) : Prop :=
  ∀ a b, eq a b = true ↔ plus a = plus b ∧ nanFree a = true ∧ nanFree b = true

/-- Numbers are equal if and only if they have the same value. -/
theorem C113_number {x y : F32} (hx : Finite x) (hy : Finite y) : AdjData.floatEq x y = true ↔ value x = value y := by
  rw [value_eq, value_eq]
  exact Fl.eq_iff ((finite_iff x).mp hx).not_nan ((finite_iff y).mp hy).not_nan

theorem C113_hlpb : ComparesUpToZeros HlpbData.eqR HlpbData.plus HlpbData.nanFree := HlpbData.eqR_iff
theorem C113_matl : ComparesUpToZeros MatlData.eqR MatlData.plus MatlData.nanFree := MatlData.eqR_iff
theorem C113_skel : ComparesUpToZeros SkelData.eqR SkelData.plus SkelData.nanFree := SkelData.eqR_iff
theorem C113_meshex : ComparesUpToZeros MeshExData.eqR MeshExData.plus MeshExData.nanFree := MeshExData.eqR_iff
theorem C113_anim : ComparesUpToZeros AnimData.eqR AnimData.plus AnimData.nanFree := AnimData.eqR_iff

/-- What users expect of `==`, and that a value is only unequal to itself if it contains a NaN. -/
structure Lawful (eq : α → α → Bool) (nanFree : α → Bool) : Prop where
  self : ∀ a, eq a a = true ↔ nanFree a = true
  symm : ∀ a b, eq a b = eq b a
  trans : ∀ a b c, eq a b = true → eq b c = true → eq a c = true

theorem ComparesUpToZeros.lawful {eq : α → α → Bool} {plus : α → α} {nanFree : α → Bool} (h : ComparesUpToZeros eq plus nanFree) :
    Lawful eq nanFree where
  self a := by rw [h]; simp
  symm a b := by rw [Bool.eq_iff_iff, h, h]; tauto
  trans a b c := by
    rw [h, h, h]
    rintro ⟨e, n, _⟩ ⟨e', _, n'⟩
    exact ⟨e.trans e', n, n'⟩

theorem C113_lawful : Lawful HlpbData.eqR HlpbData.nanFree ∧ Lawful MatlData.eqR MatlData.nanFree ∧
    Lawful SkelData.eqR SkelData.nanFree ∧ Lawful MeshExData.eqR MeshExData.nanFree ∧ Lawful AnimData.eqR AnimData.nanFree :=
  ⟨C113_hlpb.lawful, C113_matl.lawful, C113_skel.lawful, C113_meshex.lawful, C113_anim.lawful⟩

/-! ## Files that are saved and opened again -/

theorem C113_reopened_hlpb (file : Bytes) (d : HlpbData) (hr : HlpbData.read file = .ok d) (bytes : Bytes) (hw : d.write = .ok bytes) :
    ∃ d', HlpbData.read bytes = .ok d' ∧ (d.eqR d' = true ↔ d.nanFree = true) :=
  ⟨d, C47_hlpb file d hr bytes hw, C113_hlpb.lawful.self d⟩

theorem C113_reopened_matl (file : Bytes) (d : MatlData) (hr : MatlData.read file = .ok d) (bytes : Bytes) (hw : d.write = .ok bytes) :
    ∃ d', MatlData.read bytes = .ok d' ∧ (d.eqR d' = true ↔ d.nanFree = true) :=
  ⟨d, C47_matl file d hr bytes hw, C113_matl.lawful.self d⟩

theorem C113_reopened_skel (O : MatOps Matrix4x4) (file : Bytes) (d : SkelData) (hr : SkelData.read file = .ok d) (bytes : Bytes)
    (hw : d.write O = .ok bytes) : ∃ d', SkelData.read bytes = .ok d' ∧ (d.eqR d' = true ↔ d.nanFree = true) :=
  ⟨d, C47_skel O file d hr bytes hw, C113_skel.lawful.self d⟩

theorem C113_reopened_meshex (sphereOf : List Mesh.BoundingSphere → Mesh.BoundingSphere) (file : Bytes) (d : MeshExData)
    (hr : MeshExData.read file = .ok d) (bytes : Bytes) (hw : d.write sphereOf = .ok bytes) :
    ∃ d', MeshExData.read bytes = .ok d' ∧ (d.eqR d' = true ↔ d.nanFree = true) :=
  ⟨d, C47_meshex sphereOf file d hr bytes hw, C113_meshex.lawful.self d⟩

/-! ## Equal data, different files -/

/-- A constraint that only differs in the sign of a zero. -/
def zeroAim (x : F32) : HlpbData where
  major_version := 1
  minor_version := 1
  aim_constraints := [⟨"a", "b", "b", "c", "c", "d", "d", 0, 1, ⟨x, 0, 0⟩, ⟨0, 0x3f800000, 0⟩, ⟨0, 0, 0, 0x3f800000⟩, ⟨0, 0, 0, 0x3f800000⟩⟩]
  orient_constraints := []

/-- `==` does not mean that the files are the same. -/
theorem C113_equal_not_same : ∃ (a b : HlpbData) (fa fb : Bytes), a.eqR b = true ∧ a.write = .ok fa ∧ b.write = .ok fb ∧ fa ≠ fb := by
  have ha : ∃ f, (zeroAim 0).write = .ok f := isOk_iff.mp (by decide +kernel)
  have hb : ∃ f, (zeroAim 0x80000000).write = .ok f := isOk_iff.mp (by decide +kernel)
  obtain ⟨fa, ha⟩ := ha
  obtain ⟨fb, hb⟩ := hb
  refine ⟨_, _, fa, fb, by decide +kernel, ha, hb, ?_⟩
  rintro rfl
  have h : (zeroAim 0).write ≠ (zeroAim 0x80000000).write := by decide +kernel
  exact h (ha.trans hb.symm)

-- a NaN makes data unequal to itself, an infinity does not
example : (zeroAim 0x7fc00000).eqR (zeroAim 0x7fc00000) = false ∧ (zeroAim 0x7f800000).eqR (zeroAim 0x7f800000) = true := by
  decide +kernel
example : (zeroAim 0).nanFree = true ∧ (zeroAim 0x7fc00000).nanFree = false := by decide +kernel
example : (zeroAim 0).eqR (zeroAim 0x3f800000) = false := by decide +kernel
example : Finite 0 ∧ Finite 0x80000000 ∧ (0 : F32) ≠ 0x80000000 := by decide +kernel
-- files which can be opened and saved again
example : ∃ bytes, (zeroAim 0).write = .ok bytes ∧ HlpbData.read bytes = .ok (zeroAim 0) := by
  have ha : ∃ f, (zeroAim 0).write = .ok f := isOk_iff.mp (by decide +kernel)
  obtain ⟨f, h⟩ := ha
  have he : HlpbData.read <$> (zeroAim 0).write = .ok (.ok (zeroAim 0)) := by decide +kernel
  rw [h] at he
  exact ⟨f, h, Except.ok.inj he⟩

end Verif.Props
