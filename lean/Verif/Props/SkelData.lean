import Verif.Data.SkelDataLaws
import Mathlib.Data.Matrix.Mul
import Mathlib.LinearAlgebra.Matrix.NonsingularInverse
import Mathlib.LinearAlgebra.Matrix.Notation
import Mathlib.Algebra.Order.Ring.Rat
/-!
# Skeletons

C36: world transforms. C35: conversion to a file and back. C37: relative transforms.
-/

namespace Verif
namespace Props
open SkelData

/-! ## C36 -/

/-- Following parents from `bone` comes to some index twice. -/
def RunsIntoCycle (bones : List BoneData) (bone : BoneData) : Prop :=
  ∃ i j k, j < k ∧ follow bones bone.parent_index j = some i ∧ follow bones bone.parent_index k = some i

/-- The loop ends: with at least one round more than there are bones there is always a result, and the number of
rounds does not matter. -/
theorem C36_terminates (O : MatOps Matrix4x4) (data : SkelData) (bone : BoneData) :
    ∃ r, ∀ fuel, data.bones.length + 1 ≤ fuel → worldLoop O data.bones fuel bone bone.transform [] = some r := by
  cases h : worldTransform O data bone with
  | none => exact absurd h (worldLoop_ends O data.bones _ _ _ [] .nil (by simp) (by simp))
  | some r =>
    refine ⟨r, fun fuel hf => ?_⟩
    have := worldLoop_mono O data.bones _ (fuel - (data.bones.length + 1)) _ _ _ _ h
    rwa [Nat.add_sub_cancel' hf] at this

theorem worldTransform_some (O : MatOps Matrix4x4) (data : SkelData) (bone : BoneData) :
    ∃ r, worldTransform O data bone = some r := by
  obtain ⟨r, h⟩ := C36_terminates O data bone
  exact ⟨r, h _ (Nat.le_refl _)⟩

theorem chain_not_cycle {bones : List BoneData} {bone : BoneData} {l : List BoneData}
    (h : Chain bones bone.parent_index l) : ¬RunsIntoCycle bones bone := by
  rintro ⟨i, j, k, hjk, hj, hk⟩
  obtain ⟨n, hn⟩ := h.ends
  exact follow_repeat hjk hj hk n hn

/-- A cycle is reported exactly when there is one. -/
theorem C36_cycle_iff (O : MatOps Matrix4x4) (data : SkelData) (bone : BoneData) :
    (∃ e, worldTransform O data bone = some (.error e)) ↔ RunsIntoCycle data.bones bone := by
  constructor
  · rintro ⟨⟨i⟩, h⟩
    obtain ⟨j, k, hs⟩ := worldLoop_sound O data.bones bone.parent_index _ bone _ [] 0 _ rfl (by simp) h
    exact ⟨i, j, k, hs⟩
  · intro hc
    obtain ⟨r, h⟩ := worldTransform_some O data bone
    cases r with
    | error e => exact ⟨e, h⟩
    | ok m =>
      obtain ⟨l, hl, _⟩ := worldLoop_sound O data.bones bone.parent_index _ bone _ [] 0 _ rfl (by simp) h
      exact absurd hc (chain_not_cycle hl)

/-- The reported index is one which the walk comes to twice. -/
theorem C36_cycle_index (O : MatOps Matrix4x4) (data : SkelData) (bone : BoneData) (i : Nat)
    (h : worldTransform O data bone = some (.error (.cycleDetected i))) :
    ∃ j k, j < k ∧ follow data.bones bone.parent_index j = some i ∧ follow data.bones bone.parent_index k = some i :=
  worldLoop_sound O data.bones bone.parent_index _ bone _ [] 0 _ rfl (by simp) h

/-- Otherwise the result is the product of the transforms, from the last ancestor down to the bone. -/
theorem C36_product (O : MatOps Matrix4x4) (data : SkelData) (bone : BoneData)
    (hc : ¬RunsIntoCycle data.bones bone) :
    ∃ ancestors, Chain data.bones bone.parent_index ancestors ∧
      worldTransform O data bone =
        some (.ok (ancestors.reverse.foldr (fun p t => O.mul p.transform t) bone.transform)) := by
  obtain ⟨r, h⟩ := worldTransform_some O data bone
  cases r with
  | error e => exact absurd ((C36_cycle_iff O data bone).mp ⟨e, h⟩) hc
  | ok m =>
    obtain ⟨l, hl, he⟩ := worldLoop_sound O data.bones bone.parent_index _ bone _ [] 0 _ rfl (by simp) h
    exact ⟨l, hl, by rw [h, he, List.foldr_reverse]⟩

/-- The chain of ancestors is determined by the skeleton. -/
theorem C36_ancestors_unique (bones : List BoneData) (start : Option Nat) (l l' : List BoneData)
    (h : Chain bones start l) (h' : Chain bones start l') : l = l' := h.unique h'

def m0 (n : F32) : Matrix4x4 := let v : Vector4 := ⟨n, 0, 0, 0⟩; ⟨v, v, v, v⟩

/-- Three bones in a chain, and a bone whose parent is missing. -/
def chainSkel : SkelData := ⟨1, 0, [⟨"root", m0 1, none, .Disabled⟩, ⟨"a", m0 2, some 0, .Disabled⟩,
  ⟨"b", m0 3, some 1, .Disabled⟩, ⟨"lost", m0 4, some 9, .Disabled⟩]⟩

/-- Two bones which are parents of each other. -/
def cyclicSkel : SkelData := ⟨1, 0, [⟨"x", m0 1, some 1, .Disabled⟩, ⟨"y", m0 2, some 0, .Disabled⟩]⟩

/-- Operations which add up the first element, to see what is multiplied. -/
def countOps : MatOps Matrix4x4 := ⟨fun a b => m0 (10 * a.col1.x + b.col1.x), id⟩

example : chainSkel.bones.map (worldTransform countOps chainSkel) =
    [some (.ok (m0 1)), some (.ok (m0 12)), some (.ok (m0 33)), some (.ok (m0 4))] := by decide +kernel

example : cyclicSkel.bones.map (worldTransform countOps cyclicSkel) =
    [some (.error (.cycleDetected 1)), some (.error (.cycleDetected 0))] := by decide +kernel

/-! ## C35 -/

/-- What is left of a parent index: 16 bits, where the upper half stands for no parent. -/
def storedParent : Option Nat → Option Nat
  | none => none
  | some p => if p % 65536 < 32768 then some (p % 65536) else none

/-- Converting succeeds exactly when no bone runs into a cycle. -/
theorem C35_succeeds_iff (O : MatOps Matrix4x4) (data : SkelData) :
    (∃ s, toSkel O data = some (.ok s)) ↔ ∀ b ∈ data.bones, ¬RunsIntoCycle data.bones b := by
  unfold toSkel
  constructor
  · rintro ⟨s, h⟩ b hb
    split at h
    · cases h
    · cases h
    · rename_i w hw
      rw [collect_ok] at hw
      have := List.mem_map_of_mem (f := worldTransform O data) hb
      rw [hw, List.mem_map] at this
      obtain ⟨m, _, hm⟩ := this
      intro hc
      obtain ⟨e, he⟩ := (C36_cycle_iff O data b).mpr hc
      rw [he] at hm
      cases hm
  · intro h
    split
    · rename_i hn
      refine absurd hn (collect_none ?_)
      intro x hx
      obtain ⟨b, _, rfl⟩ := List.mem_map.mp hx
      obtain ⟨r, hr⟩ := worldTransform_some O data b
      rw [hr]
      simp
    · rename_i e he
      have := collect_error he
      obtain ⟨b, hb, hx⟩ := List.mem_map.mp this
      exact absurd ((C36_cycle_iff O data b).mp ⟨e, hx⟩) (h b hb)
    · exact ⟨_, rfl⟩

/-- A failed conversion reports a bone's cycle; it never fails to end. -/
theorem C35_failure (O : MatOps Matrix4x4) (data : SkelData) (h : ∃ b ∈ data.bones, RunsIntoCycle data.bones b) :
    ∃ e, toSkel O data = some (.error e) := by
  cases hs : toSkel O data with
  | none =>
    unfold toSkel at hs
    split at hs
    · rename_i hn
      refine absurd hn (collect_none ?_)
      intro x hx
      obtain ⟨b, _, rfl⟩ := List.mem_map.mp hx
      obtain ⟨r, hr⟩ := worldTransform_some O data b
      rw [hr]
      simp
    · cases hs
    · cases hs
  | some r =>
    cases r with
    | error e => exact ⟨e, rfl⟩
    | ok s =>
      obtain ⟨b, hb, hc⟩ := h
      exact absurd hc ((C35_succeeds_iff O data).mp ⟨s, hs⟩ b hb)

theorem parent_stored (p : Option Nat) :
    (let i : Int16 := match p with | some index => Int16.ofNat index | none => -1
     if i.toInt < 0 then none else some i.toInt.toNat) = storedParent p := by
  cases p with
  | none => decide
  | some p =>
    simp only [storedParent, Int16.toInt_ofNat', Int.bmod]
    have hs : ((Int16.size : Nat) : Int) = 65536 := rfl
    have h : ((p : Int) % 65536) = ((p % 65536 : Nat) : Int) := by simp
    rw [hs, h]
    by_cases hp : p % 65536 < 32768
    · rw [if_pos hp, if_neg, if_pos]
      · rw [Int.toNat_natCast]
      · omega
      · rw [if_pos (by omega)]; omega
    · rw [if_neg hp, if_pos]
      rw [if_neg (by omega)]
      omega

theorem map_zipIdx_zip {f : α × Nat → β} {g : α → γ} : ∀ (l : List α) (n : Nat),
    ((l.zipIdx n).map f).zip (l.map g) = (l.zipIdx n).map fun x => (f x, g x.1)
  | [], _ => rfl
  | x :: l, n => by simp [map_zipIdx_zip l]

theorem map_zipIdx_fst {f : α → β} : ∀ (l : List α) (n : Nat), (l.zipIdx n).map (fun x => f x.1) = l.map f
  | [], _ => rfl
  | x :: l, n => by simp [map_zipIdx_fst l]

/-- Bones come back in order with names cut at NUL, their transforms and billboard types, and the low 16 bits of
their parent. The version becomes 1.0. -/
theorem C35_round_trip (O : MatOps Matrix4x4) (data : SkelData) (s : Skel) (h : toSkel O data = some (.ok s)) :
    ofSkel s = ⟨1, 0, data.bones.map fun b =>
      { b with name := cutNul b.name, parent_index := storedParent b.parent_index }⟩ := by
  unfold toSkel at h
  split at h
  · cases h
  · cases h
  · cases h
    simp only [ofSkel, Skel.format, SkelData.mk.injEq, true_and]
    rw [map_zipIdx_zip, List.map_map, ← map_zipIdx_fst data.bones 0]
    apply List.map_congr_left
    intro x _
    simp only [Function.comp, createBoneData, toStringLossy_ssbhText, BoneData.mk.injEq, true_and, and_true]
    exact parent_stored _

/-- Identity, where parents are below 32768. Missing from the full statement: larger parents. -/
theorem C35_identity_partial (O : MatOps Matrix4x4) (data : SkelData) (s : Skel)
    (h : toSkel O data = some (.ok s)) (hv : data.major_version = 1 ∧ data.minor_version = 0)
    (hn : ∀ b ∈ data.bones, '\x00' ∉ b.name.toList)
    (hp : ∀ b ∈ data.bones, ∀ p, b.parent_index = some p → p < 32768) : ofSkel s = data := by
  rw [C35_round_trip O data s h]
  have : (data.bones.map fun b =>
      { b with name := cutNul b.name, parent_index := storedParent b.parent_index }) = data.bones := by
    rw [List.map_congr_left (g := id), List.map_id]
    intro b hb
    rw [cutNul_of_not_mem (hn b hb)]
    have : storedParent b.parent_index = b.parent_index := by
      cases hbp : b.parent_index with
      | none => rfl
      | some p =>
        have := hp b hb p hbp
        rw [storedParent, Nat.mod_eq_of_lt (by omega), if_pos this]
    rw [this]
    rfl
  rw [this, ← hv.1, ← hv.2]

example : ∃ s, toSkel countOps chainSkel = some (.ok s) ∧ ofSkel s = chainSkel :=
  ⟨_, rfl, C35_identity_partial countOps chainSkel _ rfl (by decide) (by decide +kernel) (by decide)⟩

/-- A bone whose (missing) parent has index 65536 comes back as its own parent; the parent 40000 is lost. -/
theorem C35_large_parent (O : MatOps Matrix4x4) (t : Matrix4x4) :
    ∃ s, toSkel O ⟨1, 0, [⟨"a", t, some 65536, .Disabled⟩, ⟨"b", t, some 40000, .Disabled⟩]⟩ = some (.ok s) ∧
      (ofSkel s).bones.map (·.parent_index) = [some 0, none] := by
  have h : ∃ s, toSkel O ⟨1, 0, [⟨"a", t, some 65536, .Disabled⟩, ⟨"b", t, some 40000, .Disabled⟩]⟩ =
      some (.ok s) := ⟨_, rfl⟩
  obtain ⟨s, hs⟩ := h
  exact ⟨s, hs, by rw [C35_round_trip O _ s hs]; rfl⟩

/-- The arrays of a written file run in parallel with the bones: entry `i` has index `i`, and the matrices at `i` are
the transforms of bone `i` and their inverses. -/
theorem C35_file_arrays (O : MatOps Matrix4x4) (data : SkelData) (s : Skel.V10Data)
    (h : toSkel O data = some (.ok (.V10 s))) (i : Nat) (b : BoneData) (hb : data.bones[i]? = some b) :
    (s.bone_entries[i]?).map (fun e => (e.index.toNat, e.name)) = some (i % 65536, ssbhText b.name) ∧
    s.transforms[i]? = some b.transform ∧ s.inv_transforms[i]? = some (O.inverse b.transform) ∧
    ∃ m, worldTransform O data b = some (.ok m) ∧ s.world_transforms[i]? = some m ∧
      s.inv_world_transforms[i]? = some (O.inverse m) := by
  unfold toSkel at h
  split at h
  · cases h
  · cases h
  · rename_i w hw
    cases h
    rw [collect_ok] at hw
    have := congrArg (·[i]?) hw
    simp only [List.getElem?_map, hb, Option.map_some] at this
    cases hm : w[i]? with
    | none => rw [hm] at this; cases this
    | some m =>
      rw [hm, Option.map_some, Option.some.injEq] at this
      refine ⟨by simp [hb, List.getElem?_zipIdx], by simp [hb], by simp [hb], m, this, rfl, by simp [hm]⟩

example : ∃ s, toSkel countOps chainSkel = some (.ok (.V10 s)) ∧ s.world_transforms[2]? = some (m0 33) :=
  ⟨_, rfl, by decide +kernel⟩

/-! ## C37

For matrices with exact arithmetic. The code multiplies `world * parent⁻¹`, but a bone's world transform is
`parent * relative` (C36). -/

abbrev M4 := Matrix (Fin 4) (Fin 4) ℚ

/-- Exact operations. -/
noncomputable def exactOps : MatOps M4 := ⟨fun a b => a * b, fun a => a⁻¹⟩

/-- The relative transform recomposes exactly when the two matrices commute. -/
theorem C37_iff (world parent : M4) (h : IsUnit parent.det) :
    parent * relativeTransform exactOps world (some parent) = world ↔ parent * world = world * parent := by
  show parent * (world * parent⁻¹) = world ↔ _
  constructor
  · intro he
    calc parent * world = parent * world * (parent⁻¹ * parent) := by rw [Matrix.nonsing_inv_mul _ h, mul_one]
      _ = parent * (world * parent⁻¹) * parent := by simp only [Matrix.mul_assoc]
      _ = world * parent := by rw [he]
  · intro he
    rw [← Matrix.mul_assoc, he, Matrix.mul_assoc, Matrix.mul_nonsing_inv _ h, mul_one]

/-- What holds instead: the relative transform times the parent is the world transform. Missing from the full
statement: the order in which a skeleton multiplies. -/
theorem C37_other_order_partial (world parent : M4) (h : IsUnit parent.det) :
    relativeTransform exactOps world (some parent) * parent = world := by
  show world * parent⁻¹ * parent = world
  rw [Matrix.mul_assoc, Matrix.nonsing_inv_mul _ h, mul_one]

/-- A translation, written so that columns are multiplied from the left. -/
def translateX : M4 := !![1, 0, 0, 1; 0, 1, 0, 0; 0, 0, 1, 0; 0, 0, 0, 1]

def scaleX : M4 := !![2, 0, 0, 0; 0, 1, 0, 0; 0, 0, 1, 0; 0, 0, 0, 1]

theorem translateX_unit : IsUnit translateX.det := by
  rw [← Matrix.isUnit_iff_isUnit_det]
  exact ⟨⟨translateX, !![1, 0, 0, -1; 0, 1, 0, 0; 0, 0, 1, 0; 0, 0, 0, 1], by decide +kernel, by decide +kernel⟩, rfl⟩

/-- The full statement is false: a scaled bone below a translated parent. -/
theorem C37_fails : ∃ world parent : M4, IsUnit parent.det ∧
    parent * relativeTransform exactOps world (some parent) ≠ world :=
  ⟨scaleX, translateX, translateX_unit, fun h =>
    absurd ((C37_iff _ _ translateX_unit).mp h) (by decide +kernel)⟩

/-- Without a parent the world transform is the relative transform. -/
theorem C37_no_parent (world : M4) : relativeTransform exactOps world none = world := rfl

end Props
end Verif
