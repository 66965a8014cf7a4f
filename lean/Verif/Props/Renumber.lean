import Verif.Props.Independent
/-!
# C115: Moving bones in the list

Bones refer to their parents by index. The order of the bones does not matter as long as the indices are changed accordingly.
-/

namespace Verif.Props
open SkelData

/-- The bone where all bones have new indices. -/
def renumber (σ : Nat → Nat) (b : BoneData) : BoneData := { b with parent_index := b.parent_index.map σ }

/-- The error with the new index. -/
def renumberError (σ : Nat → Nat) : Except BoneTransformError Matrix4x4 → Except BoneTransformError Matrix4x4
  | .ok m => .ok m
  | .error (.cycleDetected i) => .error (.cycleDetected (σ i))

/-- The bones met when following parents from `bone` are also in the other skeleton, with new indices. -/
def Moves (σ : Nat → Nat) (s s' : SkelData) (bone : BoneData) : Prop :=
  ∀ i, IsAncestor s.bones bone i → s'.bones[σ i]? = (s.bones[i]?).map (renumber σ)

/-- Every bone of the one skeleton is in the other one, with new indices, and missing bones are missing there. -/
def MovesAll (σ : Nat → Nat) (s s' : SkelData) : Prop := ∀ i, s'.bones[σ i]? = (s.bones[i]?).map (renumber σ)

theorem worldLoop_renumber (O : MatOps Matrix4x4) {σ : Nat → Nat} (hσ : ∀ i j, σ i = σ j → i = j) {bones bones' : List BoneData} :
    ∀ (fuel : Nat) (bone : BoneData) (m : Matrix4x4) (visited : List Nat),
      (∀ i, IsAncestor bones bone i → bones'[σ i]? = (bones[i]?).map (renumber σ)) →
      worldLoop O bones' fuel (renumber σ bone) m (visited.map σ) = (worldLoop O bones fuel bone m visited).map (renumberError σ)
  | 0, _, _, _, _ => rfl
  | fuel + 1, bone, m, visited, h => by
    cases hp : bone.parent_index with
    | none => simp [worldLoop, renumber, hp, renumberError]
    | some p =>
      have hm : σ p ∈ visited.map σ ↔ p ∈ visited := by
        rw [List.mem_map]
        exact ⟨fun ⟨q, hq, e⟩ => hσ q p e ▸ hq, fun hq => ⟨p, hq, rfl⟩⟩
      have hb := h p ⟨0, by simp [follow, hp]⟩
      have hr : (renumber σ bone).parent_index = some (σ p) := by simp [renumber, hp]
      simp only [worldLoop, hr, hp, hm]
      split
      · rfl
      · rw [hb]
        cases hq : bones[p]? with
        | none => rfl
        | some parent =>
          simp only [Option.map_some]
          exact worldLoop_renumber O hσ fuel parent _ (p :: visited) fun i ⟨n, hn⟩ => h i ⟨n + 1, by rw [hp, follow_parent hq, hn]⟩

/-- The world transform of a bone is the same if the bones are moved. -/
theorem C115_world (O : MatOps Matrix4x4) {σ : Nat → Nat} (hσ : ∀ i j, σ i = σ j → i = j) (s s' : SkelData) (bone : BoneData)
    (h : Moves σ s s' bone) : worldTransform O s' (renumber σ bone) = (worldTransform O s bone).map (renumberError σ) := by
  obtain ⟨r, hr⟩ := C36_terminates O s bone
  obtain ⟨r', hr'⟩ := C36_terminates O s' (renumber σ bone)
  have h1 := hr (s.bones.length + s'.bones.length + 1) (by omega)
  have h2 := hr' (s.bones.length + s'.bones.length + 1) (by omega)
  have h3 := worldLoop_renumber O hσ (s.bones.length + s'.bones.length + 1) bone bone.transform [] h
  have e1 : worldTransform O s' (renumber σ bone) = some r' := hr' _ (Nat.le_refl _)
  have e2 : worldTransform O s bone = some r := hr _ (Nat.le_refl _)
  rw [h1] at h3
  rw [e1, e2, ← h3]
  exact h2.symm

/-- The four matrices of a bone in the saved file are the same if the bones are moved. -/
theorem C115_file (O : MatOps Matrix4x4) {σ : Nat → Nat} (hσ : ∀ i j, σ i = σ j → i = j) (s s' : SkelData) (a a' : Skel.V10Data)
    (h : s.toSkel O = some (.ok (.V10 a))) (h' : s'.toSkel O = some (.ok (.V10 a'))) (k : Nat) (bone : BoneData)
    (hk : s.bones[k]? = some bone) (hk' : s'.bones[σ k]? = some (renumber σ bone)) (hm : Moves σ s s' bone) :
    (a.world_transforms[k]?).isSome ∧ a.world_transforms[k]? = a'.world_transforms[σ k]? ∧
      a.inv_world_transforms[k]? = a'.inv_world_transforms[σ k]? ∧ a.transforms[k]? = a'.transforms[σ k]? ∧
      a.inv_transforms[k]? = a'.inv_transforms[σ k]? := by
  obtain ⟨w, h0, h1, h2, h3, h4⟩ := toSkel_world h hk
  obtain ⟨w', g0, g1, g2, g3, g4⟩ := toSkel_world h' hk'
  rw [C115_world O hσ s s' bone hm, h0] at g0
  cases g0
  rw [h1, h2, h3, h4, g1, g2, g3, g4]
  exact ⟨rfl, rfl, rfl, rfl, rfl⟩

/-- Whether the parents of a bone are a cycle does not depend on the order. -/
theorem C115_cycle {σ : Nat → Nat} (hσ : ∀ i j, σ i = σ j → i = j) (s s' : SkelData) (bone : BoneData)
    (h : Moves σ s s' bone) : RunsIntoCycle s'.bones (renumber σ bone) ↔ RunsIntoCycle s.bones bone := by
  let O : MatOps Matrix4x4 := ⟨fun a _ => a, id⟩
  rw [← C36_cycle_iff O s' (renumber σ bone), ← C36_cycle_iff O s bone, C115_world O hσ s s' bone h]
  obtain ⟨r, hr⟩ := worldTransform_some O s bone
  rw [hr]
  cases r with
  | ok m => simp [renumberError]
  | error e =>
    cases e with
    | cycleDetected i => simp [renumberError]

/-- A skeleton with the same bones in another order can be saved if and only if the skeleton can be saved. -/
theorem C115_order (O : MatOps Matrix4x4) {σ : Nat → Nat} (hσ : ∀ i j, σ i = σ j → i = j) (s s' : SkelData)
    (h : MovesAll σ s s') (hs : ∀ k, k < s'.bones.length → ∃ i, σ i = k) :
    (∃ f, s'.toSkel O = some (.ok f)) ↔ ∃ f, s.toSkel O = some (.ok f) := by
  rw [C35_succeeds_iff, C35_succeeds_iff]
  constructor
  · intro hc b hb
    obtain ⟨i, hi, hb⟩ := List.getElem_of_mem hb
    have hm := h i
    rw [List.getElem?_eq_getElem hi, hb, Option.map_some] at hm
    rw [← C115_cycle hσ s s' b fun i _ => h i]
    exact hc _ (List.mem_of_getElem? hm)
  · intro hc b hb
    obtain ⟨k, hk, hb⟩ := List.getElem_of_mem hb
    obtain ⟨i, rfl⟩ := hs k hk
    have hm := h i
    rw [List.getElem?_eq_getElem hk, hb] at hm
    obtain ⟨c, hc', rfl⟩ := Option.map_eq_some_iff.mp hm.symm
    rw [C115_cycle hσ s s' c fun i _ => h i]
    exact hc _ (List.mem_of_getElem? hc')

/-! ## Putting skeletons together -/

/-- The bones of the second skeleton behind the ones of the first one. -/
def merged (s t : SkelData) : SkelData := { s with bones := s.bones ++ t.bones.map (renumber (s.bones.length + ·)) }

/-- No parent is missing. -/
def Complete (s : SkelData) : Prop := ∀ b ∈ s.bones, ∀ p, b.parent_index = some p → p < s.bones.length

theorem renumber_id (b : BoneData) : renumber (fun i => i) b = b := by
  cases b; simp [renumber]

theorem merged_second (s t : SkelData) : MovesAll (s.bones.length + ·) t (merged s t) := by
  intro i
  show (s.bones ++ t.bones.map (renumber (s.bones.length + ·)))[s.bones.length + i]? = _
  rw [List.getElem?_append_right (by omega), Nat.add_sub_cancel_left, List.getElem?_map]

theorem merged_first (s t : SkelData) (h : Complete s) (bone : BoneData) (hb : bone ∈ s.bones) :
    Moves (fun i => i) s (merged s t) bone := by
  have key : ∀ n (b : BoneData), b ∈ s.bones → ∀ i, follow s.bones b.parent_index n = some i → i < s.bones.length := by
    intro n
    induction n with
    | zero => intro b hb i hi; exact h b hb i (by simpa [follow] using hi)
    | succ n ih =>
      intro b hb i hi
      cases hp : b.parent_index with
      | none =>
        rw [hp] at hi
        have : ∀ n, follow s.bones none n = none := by
          intro n
          induction n with
          | zero => rfl
          | succ n ih => simp [follow, ih]
        rw [this] at hi
        cases hi
      | some p =>
        have hl := h b hb p hp
        rw [hp, follow_parent (List.getElem?_eq_getElem hl)] at hi
        exact ih _ (List.getElem_mem hl) i hi
  rintro i ⟨n, hn⟩
  have hl := key n bone hb i hn
  show (s.bones ++ _)[i]? = _
  rw [List.getElem?_append_left hl, List.getElem?_eq_getElem hl, Option.map_some, renumber_id]

/-- Skeletons can be put together and saved if and only if both can be saved. -/
theorem C115_merged (O : MatOps Matrix4x4) (s t : SkelData) (hs : Complete s) :
    (∃ f, (merged s t).toSkel O = some (.ok f)) ↔ (∃ f, s.toSkel O = some (.ok f)) ∧ ∃ f, t.toSkel O = some (.ok f) := by
  rw [C35_succeeds_iff, C35_succeeds_iff, C35_succeeds_iff]
  have h1 : ∀ b ∈ s.bones, RunsIntoCycle (merged s t).bones b ↔ RunsIntoCycle s.bones b := by
    intro b hb
    have := C115_cycle (σ := fun i => i) (fun _ _ h => h) s (merged s t) b (merged_first s t hs b hb)
    rwa [renumber_id] at this
  have h2 : ∀ b ∈ t.bones, RunsIntoCycle (merged s t).bones (renumber (s.bones.length + ·) b) ↔ RunsIntoCycle t.bones b := fun b _ =>
    C115_cycle (σ := (s.bones.length + ·)) (fun _ _ h => Nat.add_left_cancel h) t (merged s t) b fun i _ => merged_second s t i
  show (∀ b ∈ s.bones ++ t.bones.map (renumber (s.bones.length + ·)), _) ↔ _
  constructor
  · intro h
    exact ⟨fun b hb => by rw [← h1 b hb]; exact h b (List.mem_append_left _ hb),
      fun b hb => by rw [← h2 b hb]; exact h _ (List.mem_append_right _ (List.mem_map_of_mem hb))⟩
  · rintro ⟨h, h'⟩ b hb
    rcases List.mem_append.mp hb with hb | hb
    · rw [h1 b hb]; exact h b hb
    · obtain ⟨c, hc, rfl⟩ := List.mem_map.mp hb
      rw [h2 c hc]; exact h' c hc

/-- The saved matrices are those of the first skeleton followed by those of the second one. -/
theorem C115_merged_file (O : MatOps Matrix4x4) (s t : SkelData) (hs : Complete s) (a b c : Skel.V10Data)
    (ha : s.toSkel O = some (.ok (.V10 a))) (hb : t.toSkel O = some (.ok (.V10 b)))
    (hc : (merged s t).toSkel O = some (.ok (.V10 c))) :
    (∀ k, k < s.bones.length → a.world_transforms[k]? = c.world_transforms[k]? ∧ a.inv_world_transforms[k]? = c.inv_world_transforms[k]? ∧
      a.transforms[k]? = c.transforms[k]? ∧ a.inv_transforms[k]? = c.inv_transforms[k]?) ∧
    ∀ k, k < t.bones.length → b.world_transforms[k]? = c.world_transforms[s.bones.length + k]? ∧
      b.inv_world_transforms[k]? = c.inv_world_transforms[s.bones.length + k]? ∧
      b.transforms[k]? = c.transforms[s.bones.length + k]? ∧ b.inv_transforms[k]? = c.inv_transforms[s.bones.length + k]? := by
  constructor
  · intro k hk
    refine (C115_file O (σ := fun i => i) (fun _ _ h => h) s (merged s t) a c ha hc k s.bones[k] (List.getElem?_eq_getElem hk) ?_
      (merged_first s t hs _ (List.getElem_mem hk))).2
    show (s.bones ++ _)[k]? = _
    rw [List.getElem?_append_left hk, List.getElem?_eq_getElem hk, renumber_id]
  · intro k hk
    refine (C115_file O (σ := (s.bones.length + ·)) (fun _ _ h => Nat.add_left_cancel h) t (merged s t) b c hb hc k t.bones[k]
      (List.getElem?_eq_getElem hk) ?_ fun i _ => merged_second s t i).2
    rw [merged_second, List.getElem?_eq_getElem hk, Option.map_some]

/-! ## Examples -/

/-- Exchanges the first two indices. -/
def swap01 (i : Nat) : Nat := if i = 0 then 1 else if i = 1 then 0 else i

/-- Three bones in a chain. -/
def threeBones : SkelData := { chainSkel with bones := chainSkel.bones.take 3 }

/-- `threeBones` with the first two bones exchanged. -/
def swappedSkel : SkelData :=
  { threeBones with bones := (threeBones.bones[1]?.toList ++ threeBones.bones[0]?.toList ++ threeBones.bones.drop 2).map (renumber swap01) }

example : ∀ i j, swap01 i = swap01 j → i = j := by
  intro i j h
  simp only [swap01] at h
  split at h <;> split at h <;> (try split at h) <;> (try split at h) <;> omega
example : MovesAll swap01 threeBones swappedSkel := by
  intro i
  match i with
  | 0 => decide +kernel
  | 1 => decide +kernel
  | 2 => decide +kernel
  | i + 3 =>
    have h : swap01 (i + 3) = i + 3 := by simp [swap01]
    rw [h, List.getElem?_eq_none, List.getElem?_eq_none]
    · rfl
    · rw [show threeBones.bones.length = 3 by decide]; omega
    · rw [show swappedSkel.bones.length = 3 by decide]; omega
example : swappedSkel ≠ threeBones ∧ swappedSkel.bones.map (worldTransform countOps swappedSkel) =
    [some (.ok (m0 12)), some (.ok (m0 1)), some (.ok (m0 33))] := by decide +kernel
example : Complete threeBones ∧ Complete cyclicSkel := by
  constructor <;> (intro b hb; revert b; decide +kernel)
example : (∃ f, (merged threeBones chainSkel).toSkel countOps = some (.ok f)) :=
  (C115_merged countOps threeBones chainSkel (by intro b hb; revert b; decide +kernel)).mpr ⟨⟨_, rfl⟩, ⟨_, rfl⟩⟩
-- a missing parent of the first skeleton would become a bone of the second one
example : ¬Complete ⟨1, 0, [⟨"x", m0 1, some 1, .Disabled⟩]⟩ ∧
    (merged ⟨1, 0, [⟨"x", m0 1, some 1, .Disabled⟩]⟩ chainSkel).bones.map
      (worldTransform countOps (merged ⟨1, 0, [⟨"x", m0 1, some 1, .Disabled⟩]⟩ chainSkel)) ≠
    worldTransform countOps ⟨1, 0, [⟨"x", m0 1, some 1, .Disabled⟩]⟩ ⟨"x", m0 1, some 1, .Disabled⟩ ::
      chainSkel.bones.map (worldTransform countOps chainSkel) := by
  refine ⟨fun h => ?_, by decide +kernel⟩
  have := h _ (List.mem_singleton.mpr rfl) 1 rfl
  simp at this

end Verif.Props
