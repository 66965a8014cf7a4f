import Verif.Data.Compare
import Verif.Data.CompareSpec
import Mathlib.Tactic.Tauto
import Mathlib.Tactic.SplitIfs
/-!
# What comparing means
-/

namespace Verif

theorem f32Eq_iff (x y : F32) : AdjData.floatEq x y = true ↔ plusZero x = plusZero y ∧ notNan x = true ∧ notNan y = true := by
  have inf : Ieee.single.inf = 0x7f800000 := by decide
  have key : ∀ v : F32, (Ieee.ofBits v).isNan = false ↔ notNan v = true := by
    intro v
    have := v.toNat_lt
    simp only [Ieee.Fl.isNan, Ieee.ofBits, inf, notNan, Bool.not_eq_true', Bool.and_eq_false_iff, beq_eq_false_iff_ne, bne_eq_false_iff_eq,
      ne_eq, decide_eq_false_iff_not]
    omega
  have sign : ∀ v : F32, (Ieee.ofBits v).key = if v.toNat < 2 ^ 31 then (v.toNat : Int) else -((v.toNat - 2 ^ 31 : Nat) : Int) := by
    intro v
    have := v.toNat_lt
    simp only [Ieee.Fl.key, Ieee.ofBits, Nat.testBit_eq_decide_div_mod_eq, decide_eq_true_eq]
    split <;> split <;> omega
  have bits : ∀ v : F32, (plusZero v).toNat = if v.toNat = 2 ^ 31 then 0 else v.toNat := by
    intro v
    have e : v = 0x80000000 ↔ v.toNat = 2 ^ 31 := by rw [← UInt32.toNat_inj]; rfl
    unfold plusZero
    simp only [e]
    split <;> rfl
  unfold AdjData.floatEq Ieee.Fl.eq
  simp only [Bool.and_eq_true, Bool.not_eq_true', key, decide_eq_true_eq, sign, ← UInt32.toNat_inj, bits]
  have hx := x.toNat_lt
  have hy := y.toNat_lt
  have : ((if x.toNat < 2 ^ 31 then (x.toNat : Int) else -((x.toNat - 2 ^ 31 : Nat) : Int)) =
      if y.toNat < 2 ^ 31 then (y.toNat : Int) else -((y.toNat - 2 ^ 31 : Nat) : Int)) ↔
      (if x.toNat = 2 ^ 31 then 0 else x.toNat) = if y.toNat = 2 ^ 31 then 0 else y.toNat := by
    split_ifs <;> omega
  rw [this]
  tauto

theorem listEq_iff {f : α → α → Bool} {g : α → α} {n : α → Bool} (h : ∀ a b, f a b = true ↔ g a = g b ∧ n a = true ∧ n b = true) :
    ∀ l l' : List α, listEq f l l' = true ↔ l.map g = l'.map g ∧ l.all n = true ∧ l'.all n = true
  | [], [] => by simp [listEq]
  | [], _ :: _ => by simp [listEq]
  | _ :: _, [] => by simp [listEq]
  | a :: l, b :: l' => by
    simp only [listEq, Bool.and_eq_true, h, listEq_iff h l l', List.map_cons, List.cons.injEq, List.all_cons]
    tauto

theorem Vector3.eqR_iff (a b : Vector3) : a.eqR b = true ↔ a.plus = b.plus ∧ a.nanFree = true ∧ b.nanFree = true := by
  cases a
  cases b
  simp only [Vector3.eqR, Vector3.plus, Vector3.nanFree, Bool.and_eq_true, f32Eq_iff, Vector3.mk.injEq]
  tauto

theorem Vector4.eqR_iff (a b : Vector4) : a.eqR b = true ↔ a.plus = b.plus ∧ a.nanFree = true ∧ b.nanFree = true := by
  cases a
  cases b
  simp only [Vector4.eqR, Vector4.plus, Vector4.nanFree, Bool.and_eq_true, f32Eq_iff, Vector4.mk.injEq]
  tauto

theorem Color4f.eqR_iff (a b : Color4f) : a.eqR b = true ↔ a.plus = b.plus ∧ a.nanFree = true ∧ b.nanFree = true := by
  cases a
  cases b
  simp only [Color4f.eqR, Color4f.plus, Color4f.nanFree, Bool.and_eq_true, f32Eq_iff, Color4f.mk.injEq]
  tauto

theorem Matl.UvTransform.eqR_iff (a b : Matl.UvTransform) : a.eqR b = true ↔ a.plus = b.plus ∧ a.nanFree = true ∧ b.nanFree = true := by
  cases a
  cases b
  simp only [Matl.UvTransform.eqR, Matl.UvTransform.plus, Matl.UvTransform.nanFree, Bool.and_eq_true, f32Eq_iff, Matl.UvTransform.mk.injEq]
  tauto

theorem Mesh.BoundingSphere.eqR_iff (a b : Mesh.BoundingSphere) : a.eqR b = true ↔ a.plus = b.plus ∧ a.nanFree = true ∧ b.nanFree = true := by
  cases a
  cases b
  simp only [Mesh.BoundingSphere.eqR, Mesh.BoundingSphere.plus, Mesh.BoundingSphere.nanFree, Bool.and_eq_true, Vector3.eqR_iff, f32Eq_iff, Mesh.BoundingSphere.mk.injEq]
  tauto

theorem Matrix4x4.eqR_iff (a b : Matrix4x4) : a.eqR b = true ↔ a.plus = b.plus ∧ a.nanFree = true ∧ b.nanFree = true := by
  cases a
  cases b
  simp only [Matrix4x4.eqR, Matrix4x4.plus, Matrix4x4.nanFree, Bool.and_eq_true, Vector4.eqR_iff, Matrix4x4.mk.injEq]
  tauto

theorem HlpbData.AimConstraintData.eqR_iff (a b : HlpbData.AimConstraintData) : a.eqR b = true ↔ a.plus = b.plus ∧ a.nanFree = true ∧ b.nanFree = true := by
  cases a
  cases b
  simp only [HlpbData.AimConstraintData.eqR, HlpbData.AimConstraintData.plus, HlpbData.AimConstraintData.nanFree, Bool.and_eq_true, beq_iff_eq, Vector3.eqR_iff, Vector4.eqR_iff, HlpbData.AimConstraintData.mk.injEq]
  tauto

theorem HlpbData.OrientConstraintData.eqR_iff (a b : HlpbData.OrientConstraintData) : a.eqR b = true ↔ a.plus = b.plus ∧ a.nanFree = true ∧ b.nanFree = true := by
  cases a
  cases b
  simp only [HlpbData.OrientConstraintData.eqR, HlpbData.OrientConstraintData.plus, HlpbData.OrientConstraintData.nanFree, Bool.and_eq_true, beq_iff_eq, Vector3.eqR_iff, Vector4.eqR_iff, HlpbData.OrientConstraintData.mk.injEq]
  tauto

theorem HlpbData.eqR_iff (a b : HlpbData) : a.eqR b = true ↔ a.plus = b.plus ∧ a.nanFree = true ∧ b.nanFree = true := by
  cases a
  cases b
  simp only [HlpbData.eqR, HlpbData.plus, HlpbData.nanFree, Bool.and_eq_true, beq_iff_eq, listEq_iff HlpbData.AimConstraintData.eqR_iff, listEq_iff HlpbData.OrientConstraintData.eqR_iff, HlpbData.mk.injEq]
  tauto

theorem MatlData.SamplerData.eqR_iff (a b : MatlData.SamplerData) : a.eqR b = true ↔ a.plus = b.plus ∧ a.nanFree = true ∧ b.nanFree = true := by
  cases a
  cases b
  simp only [MatlData.SamplerData.eqR, MatlData.SamplerData.plus, MatlData.SamplerData.nanFree, Bool.and_eq_true, beq_iff_eq, Color4f.eqR_iff, f32Eq_iff, MatlData.SamplerData.mk.injEq]
  tauto

theorem MatlData.RasterizerStateData.eqR_iff (a b : MatlData.RasterizerStateData) : a.eqR b = true ↔ a.plus = b.plus ∧ a.nanFree = true ∧ b.nanFree = true := by
  cases a
  cases b
  simp only [MatlData.RasterizerStateData.eqR, MatlData.RasterizerStateData.plus, MatlData.RasterizerStateData.nanFree, Bool.and_eq_true, beq_iff_eq, f32Eq_iff, MatlData.RasterizerStateData.mk.injEq]
  tauto

theorem MatlData.ParamData.eqR_iff {f : α → α → Bool} {g : α → α} {n : α → Bool}
    (h : ∀ a b, f a b = true ↔ g a = g b ∧ n a = true ∧ n b = true) (a b : MatlData.ParamData α) :
    MatlData.ParamData.eqR f a b = true ↔ a.plus g = b.plus g ∧ a.nanFree n = true ∧ b.nanFree n = true := by
  cases a
  cases b
  simp only [MatlData.ParamData.eqR, MatlData.ParamData.plus, MatlData.ParamData.nanFree, Bool.and_eq_true, beq_iff_eq, h, MatlData.ParamData.mk.injEq]
  tauto

theorem MatlData.MatlEntryData.eqR_iff (a b : MatlData.MatlEntryData) : a.eqR b = true ↔ a.plus = b.plus ∧ a.nanFree = true ∧ b.nanFree = true := by
  cases a
  cases b
  simp only [MatlData.MatlEntryData.eqR, MatlData.MatlEntryData.plus, MatlData.MatlEntryData.nanFree, Bool.and_eq_true, beq_iff_eq, listEq_iff (MatlData.ParamData.eqR_iff f32Eq_iff), listEq_iff (MatlData.ParamData.eqR_iff Vector4.eqR_iff), listEq_iff (MatlData.ParamData.eqR_iff MatlData.RasterizerStateData.eqR_iff), listEq_iff (MatlData.ParamData.eqR_iff MatlData.SamplerData.eqR_iff), listEq_iff (MatlData.ParamData.eqR_iff Matl.UvTransform.eqR_iff), MatlData.MatlEntryData.mk.injEq]
  tauto

theorem MatlData.eqR_iff (a b : MatlData) : a.eqR b = true ↔ a.plus = b.plus ∧ a.nanFree = true ∧ b.nanFree = true := by
  cases a
  cases b
  simp only [MatlData.eqR, MatlData.plus, MatlData.nanFree, Bool.and_eq_true, beq_iff_eq, listEq_iff MatlData.MatlEntryData.eqR_iff, MatlData.mk.injEq]
  tauto

theorem SkelData.BoneData.eqR_iff (a b : SkelData.BoneData) : a.eqR b = true ↔ a.plus = b.plus ∧ a.nanFree = true ∧ b.nanFree = true := by
  cases a
  cases b
  simp only [SkelData.BoneData.eqR, SkelData.BoneData.plus, SkelData.BoneData.nanFree, Bool.and_eq_true, beq_iff_eq, Matrix4x4.eqR_iff, SkelData.BoneData.mk.injEq]
  tauto

theorem SkelData.eqR_iff (a b : SkelData) : a.eqR b = true ↔ a.plus = b.plus ∧ a.nanFree = true ∧ b.nanFree = true := by
  cases a
  cases b
  simp only [SkelData.eqR, SkelData.plus, SkelData.nanFree, Bool.and_eq_true, beq_iff_eq, listEq_iff SkelData.BoneData.eqR_iff, SkelData.mk.injEq]
  tauto

theorem MeshExData.MeshObjectGroupData.eqR_iff (a b : MeshExData.MeshObjectGroupData) : a.eqR b = true ↔ a.plus = b.plus ∧ a.nanFree = true ∧ b.nanFree = true := by
  cases a
  cases b
  simp only [MeshExData.MeshObjectGroupData.eqR, MeshExData.MeshObjectGroupData.plus, MeshExData.MeshObjectGroupData.nanFree, Bool.and_eq_true, beq_iff_eq, Mesh.BoundingSphere.eqR_iff, MeshExData.MeshObjectGroupData.mk.injEq]
  tauto

theorem MeshExData.eqR_iff (a b : MeshExData) : a.eqR b = true ↔ a.plus = b.plus ∧ a.nanFree = true ∧ b.nanFree = true := by
  cases a
  cases b
  simp only [MeshExData.eqR, MeshExData.plus, MeshExData.nanFree, listEq_iff MeshExData.MeshObjectGroupData.eqR_iff, MeshExData.mk.injEq]

theorem UvTransform.eqR_iff (a b : UvTransform) : a.eqR b = true ↔ a.plus = b.plus ∧ a.nanFree = true ∧ b.nanFree = true := by
  cases a
  cases b
  simp only [UvTransform.eqR, UvTransform.plus, UvTransform.nanFree, Bool.and_eq_true, f32Eq_iff, UvTransform.mk.injEq]
  tauto

theorem Transform.eqR_iff (a b : Transform) : a.eqR b = true ↔ a.plus = b.plus ∧ a.nanFree = true ∧ b.nanFree = true := by
  cases a
  cases b
  simp only [Transform.eqR, Transform.plus, Transform.nanFree, Bool.and_eq_true, Vector3.eqR_iff, Vector4.eqR_iff, Transform.mk.injEq]
  tauto

theorem TrackValues.eqR_iff (a b : TrackValues) : a.eqR b = true ↔ a.plus = b.plus ∧ a.nanFree = true ∧ b.nanFree = true := by
  cases a <;> cases b <;> simp [TrackValues.eqR, TrackValues.plus, TrackValues.nanFree, listEq_iff Transform.eqR_iff, listEq_iff UvTransform.eqR_iff, listEq_iff f32Eq_iff, listEq_iff Vector4.eqR_iff]

theorem AnimData.TrackData.eqR_iff (a b : AnimData.TrackData) : a.eqR b = true ↔ a.plus = b.plus ∧ a.nanFree = true ∧ b.nanFree = true := by
  cases a
  cases b
  simp only [AnimData.TrackData.eqR, AnimData.TrackData.plus, AnimData.TrackData.nanFree, Bool.and_eq_true, beq_iff_eq, TrackValues.eqR_iff, AnimData.TrackData.mk.injEq]
  tauto

theorem AnimData.NodeData.eqR_iff (a b : AnimData.NodeData) : a.eqR b = true ↔ a.plus = b.plus ∧ a.nanFree = true ∧ b.nanFree = true := by
  cases a
  cases b
  simp only [AnimData.NodeData.eqR, AnimData.NodeData.plus, AnimData.NodeData.nanFree, Bool.and_eq_true, beq_iff_eq, listEq_iff AnimData.TrackData.eqR_iff, AnimData.NodeData.mk.injEq]
  tauto

theorem AnimData.GroupData.eqR_iff (a b : AnimData.GroupData) : a.eqR b = true ↔ a.plus = b.plus ∧ a.nanFree = true ∧ b.nanFree = true := by
  cases a
  cases b
  simp only [AnimData.GroupData.eqR, AnimData.GroupData.plus, AnimData.GroupData.nanFree, Bool.and_eq_true, beq_iff_eq, listEq_iff AnimData.NodeData.eqR_iff, AnimData.GroupData.mk.injEq]
  tauto

theorem AnimData.eqR_iff (a b : AnimData) : a.eqR b = true ↔ a.plus = b.plus ∧ a.nanFree = true ∧ b.nanFree = true := by
  cases a
  cases b
  simp only [AnimData.eqR, AnimData.plus, AnimData.nanFree, Bool.and_eq_true, beq_iff_eq, f32Eq_iff, listEq_iff AnimData.GroupData.eqR_iff, AnimData.mk.injEq]
  tauto

end Verif
