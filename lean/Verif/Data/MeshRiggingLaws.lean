import Verif.Data.MeshDataLaws
/-!
# Laws of rigging data
-/

namespace Verif
namespace MeshData

/-! ## Subindices -/

theorem validateFrom_ok : ∀ {objects : List MeshObjectData} {seen : List (String × UInt64)},
    validateFrom seen objects = .ok () ↔
      objects.Pairwise (fun a b => ¬ (a.name = b.name ∧ a.subindex = b.subindex)) ∧
      ∀ o ∈ objects, (o.name, o.subindex) ∉ seen
  | [], seen => by simp [validateFrom]
  | o :: os, seen => by
    simp only [validateFrom]
    split
    · rename_i h
      simp [h]
    · rename_i h
      rw [validateFrom_ok]
      simp only [List.pairwise_cons, List.mem_cons, not_or, Prod.mk.injEq, forall_eq_or_imp]
      constructor
      · rintro ⟨h1, h2⟩
        refine ⟨⟨?_, h1⟩, h, fun p hp => (h2 p hp).2⟩
        rintro p hp ⟨e1, e2⟩
        exact (h2 p hp).1 ⟨e1.symm, e2.symm⟩
      · rintro ⟨⟨h1, h2⟩, -, h4⟩
        refine ⟨h2, fun p hp => ⟨?_, h4 p hp⟩⟩
        rintro ⟨e1, e2⟩
        exact h1 p hp ⟨e1.symm, e2.symm⟩

theorem validateFrom_error : ∀ {objects : List MeshObjectData} {seen : List (String × UInt64)} {e : MeshErr},
    validateFrom seen objects = .error e → ∃ o ∈ objects, e = .duplicateSubindex o.name o.subindex
  | [], seen, e, h => by simp [validateFrom] at h
  | o :: os, seen, e, h => by
    simp only [validateFrom] at h
    split at h
    · cases h; exact ⟨o, by simp, rfl⟩
    · obtain ⟨p, hp, he⟩ := validateFrom_error h
      exact ⟨p, List.mem_cons_of_mem _ hp, he⟩

/-! ## Sorting -/

theorem insertBy_perm (le : α → α → Bool) (x : α) : ∀ ys, (insertBy le x ys).Perm (x :: ys)
  | [] => .refl _
  | y :: ys => by
    simp only [insertBy]
    split
    · exact .refl _
    · exact ((insertBy_perm le x ys).cons y).trans (.swap _ _ _)

theorem sortBy_perm (le : α → α → Bool) : ∀ xs, (sortBy le xs).Perm xs
  | [] => .refl _
  | x :: xs => (insertBy_perm le x _).trans ((sortBy_perm le xs).cons x)

/-- A stable sort keeps the order of elements which are equal. -/
theorem insertBy_filter {le : α → α → Bool} {p : α → Bool} (h : ∀ x y, p x = true → p y = true → le x y = true) (x : α) :
    ∀ ys, (insertBy le x ys).filter p = (x :: ys).filter p
  | [] => rfl
  | y :: ys => by
    simp only [insertBy]
    split
    · rfl
    · rename_i hle
      simp only [List.filter_cons, insertBy_filter h x ys]
      by_cases hx : p x = true
      · have hy : ¬ p y = true := fun hy => hle (h x y hx hy)
        simp [hx, hy]
      · simp [hx]

theorem sortBy_filter {le : α → α → Bool} {p : α → Bool} (h : ∀ x y, p x = true → p y = true → le x y = true) :
    ∀ xs, (sortBy le xs).filter p = xs.filter p
  | [] => rfl
  | x :: xs => by
    rw [sortBy, insertBy_filter h, List.filter_cons, List.filter_cons, sortBy_filter h xs]

theorem insertBy_mem {le : α → α → Bool} {x z : α} {ys : List α} : z ∈ insertBy le x ys ↔ z = x ∨ z ∈ ys := by
  rw [(insertBy_perm le x ys).mem_iff]; simp

theorem insertBy_sorted {le : α → α → Bool} (total : ∀ x y, le x y = true ∨ le y x = true)
    (trans : ∀ x y z, le x y = true → le y z = true → le x z = true) (x : α) :
    ∀ ys, ys.Pairwise (fun a b => le a b = true) → (insertBy le x ys).Pairwise (fun a b => le a b = true)
  | [], _ => by simp [insertBy]
  | y :: ys, h => by
    obtain ⟨h1, h2⟩ := List.pairwise_cons.mp h
    simp only [insertBy]
    split
    · rename_i hle
      refine List.pairwise_cons.mpr ⟨?_, h⟩
      intro z hz
      simp only [List.mem_cons] at hz
      rcases hz with rfl | hz
      · exact hle
      · exact trans _ _ _ hle (h1 z hz)
    · rename_i hle
      refine List.pairwise_cons.mpr ⟨?_, insertBy_sorted total trans x ys h2⟩
      intro z hz
      rw [insertBy_mem] at hz
      rcases hz with rfl | hz
      · exact (total z y).resolve_left hle
      · exact h1 z hz

theorem sortBy_sorted {le : α → α → Bool} (total : ∀ x y, le x y = true ∨ le y x = true)
    (trans : ∀ x y z, le x y = true → le y z = true → le x z = true) :
    ∀ xs, (sortBy le xs).Pairwise (fun a b => le a b = true)
  | [] => .nil
  | x :: xs => insertBy_sorted total trans x _ (sortBy_sorted total trans xs)

theorem keyLe_refl (k : Bytes × UInt64) : keyLe k k = true := by simp [keyLe]

theorem toNat_map_inj {a b : Bytes} (h : a.map (·.toNat) = b.map (·.toNat)) : a = b :=
  List.map_inj_right (fun _ _ h => UInt8.toNat_inj.mp h) |>.mp h

theorem keyLe_total (a b : Bytes × UInt64) : keyLe a b = true ∨ keyLe b a = true := by
  simp only [keyLe]
  by_cases h : a.1 = b.1
  · simp only [h, if_true, decide_eq_true_eq]; omega
  · simp only [h, Ne.symm h, if_false, decide_eq_true_eq]
    by_cases h1 : a.1.map (·.toNat) < b.1.map (·.toNat)
    · exact .inl h1
    · right
      rcases List.le_iff_lt_or_eq.mp (List.not_lt.mp h1) with h2 | h2
      · exact h2
      · exact absurd (toNat_map_inj h2).symm h

theorem keyLe_trans (a b c : Bytes × UInt64) (h1 : keyLe a b = true) (h2 : keyLe b c = true) : keyLe a c = true := by
  simp only [keyLe] at *
  by_cases hab : a.1 = b.1
  · simp only [hab, if_true, decide_eq_true_eq] at h1 ⊢
    by_cases hbc : b.1 = c.1
    · simp only [hbc, if_true, decide_eq_true_eq] at h2 ⊢; omega
    · simpa only [hbc, if_false] using h2
  · simp only [hab, if_false, decide_eq_true_eq] at h1
    by_cases hbc : b.1 = c.1
    · simp only [← hbc, hab, if_false, decide_eq_true_eq]; exact h1
    · simp only [hbc, if_false, decide_eq_true_eq] at h2
      have h3 := List.lt_trans h1 h2
      have hac : a.1 ≠ c.1 := by
        rintro h
        rw [h] at h3
        exact List.lt_irrefl _ h3
      simp only [hac, if_false, decide_eq_true_eq]; exact h3

/-! ## Weights -/

class LawWeight (Wt : Type) [Weight Wt] : Prop where
  back : ∀ (ws : List VertexWeight) (w : Wt), Weight.fromWeights ws = .ok w → Weight.toWeights w = ws

instance : LawWeight (List Mesh.VertexWeightV8) where
  back ws w h := by
    simp only [Weight.fromWeights, Except.ok.injEq, createVertexWeightsV8] at h
    subst h
    simp only [Weight.toWeights, List.map_map]
    exact List.map_id'' (fun _ => rfl) ws

theorem leBytes_two (n : Nat) : ∃ a b, leBytes 2 n = [a, b] := ⟨_, _, rfl⟩
theorem leBytes_four (n : Nat) : ∃ a b c d, leBytes 4 n = [a, b, c, d] := ⟨_, _, _, _, rfl⟩

theorem readWeights_back : ∀ (ws : List VertexWeight) (b : Bytes), createVertexWeightsV10 ws = .ok b → readWeightsV10 b = ws
  | [], b, h => by simp only [createVertexWeightsV10, Except.ok.injEq] at h; subst h; rfl
  | w :: ws, b, h => by
    simp only [createVertexWeightsV10] at h
    split at h
    · rename_i hw
      split at h
      · cases h
      rename_i bytes hb
      cases h
      obtain ⟨x, y, h2⟩ := leBytes_two w.vertex_index.toNat
      obtain ⟨p, q, r, s, h4⟩ := leBytes_four w.vertex_weight.toNat
      have e2 := fromLe_leBytes 2 w.vertex_index.toNat
      have e4 := fromLe_leBytes 4 w.vertex_weight.toNat
      rw [h2] at e2
      rw [h4] at e4
      simp only [h2, h4, List.cons_append, List.nil_append, readWeightsV10, readWeights_back ws bytes hb, e2, e4]
      rw [Nat.mod_eq_of_lt (by omega), Nat.mod_eq_of_lt (by have := w.vertex_weight.toNat_lt; omega)]
      simp
    · cases h

instance : LawWeight Bytes where
  back := readWeights_back

theorem createVertexWeightsV10_ok : ∀ {ws : List VertexWeight}, (∃ b, createVertexWeightsV10 ws = .ok b) ↔
    ∀ w ∈ ws, w.vertex_index.toNat < 2 ^ 16
  | [] => by simp [createVertexWeightsV10]
  | w :: ws => by
    have ih := createVertexWeightsV10_ok (ws := ws)
    simp only [createVertexWeightsV10, List.mem_cons, forall_eq_or_imp]
    split
    · rename_i hw
      rw [← ih]
      cases createVertexWeightsV10 ws <;> simp [hw]
    · rename_i hw
      simp [hw]

theorem createVertexWeightsV10_error : ∀ {ws : List VertexWeight} {e : MeshErr}, createVertexWeightsV10 ws = .error e →
    ∃ w ∈ ws, 2 ^ 16 ≤ w.vertex_index.toNat ∧ e = .skinWeightVertexIndexExceedsLimit w.vertex_index.toNat
  | [], e, h => by simp [createVertexWeightsV10] at h
  | w :: ws, e, h => by
    simp only [createVertexWeightsV10] at h
    split at h
    · split at h
      · rename_i e' he
        cases h
        obtain ⟨w', hw', h'⟩ := createVertexWeightsV10_error he
        exact ⟨w', List.mem_cons_of_mem _ hw', h'⟩
      · cases h
    · rename_i hw
      cases h
      exact ⟨w, by simp, by omega, rfl⟩

/-! ## Groups -/

section Groups
variable {Wt : Type} [Weight Wt]

def cutBone (i : BoneInfluence) : BoneInfluence := ⟨cutNul i.bone_name, i.vertex_weights⟩

theorem readInfluences_back [LawWeight Wt] : ∀ {l : List BoneInfluence} {bs : List (Mesh.BoneBuffer Wt)},
    collect (fun i => (Weight.fromWeights i.vertex_weights).map fun d => (⟨ssbhText i.bone_name, d⟩ : Mesh.BoneBuffer Wt)) l
      = .ok bs →
    collect (fun b : Mesh.BoneBuffer Wt =>
      match ssbhToStr b.bone_name with
      | none => Except.error MeshErr.boneName
      | some name => .ok (⟨name, Weight.toWeights b.data⟩ : BoneInfluence)) bs = .ok (l.map cutBone)
  | [], bs, h => by simp only [collect, Except.ok.injEq] at h; subst h; rfl
  | i :: l, bs, h => by
    simp only [collect] at h
    split at h
    · cases h
    rename_i b hb
    split at h
    · cases h
    rename_i bs' hbs
    cases h
    have ih := readInfluences_back hbs
    cases hw : Weight.fromWeights (Wt := Wt) i.vertex_weights with
    | error e => rw [hw] at hb; cases hb
    | ok d =>
      rw [hw] at hb
      cases hb
      simp only [collect, ssbhToStr_ssbhText, ih, List.map_cons, cutBone, LawWeight.back _ _ hw]

/-- What a group says about its object. -/
theorem createRiggingGroup_ok [LawWeight Wt] {o : MeshObjectData} {g : Mesh.RiggingGroup Wt} (h : createRiggingGroup o = .ok g) :
    g.mesh_object_name = ssbhText o.name ∧ g.mesh_object_subindex = o.subindex ∧
    g.flags.max_influences = UInt8.ofNat (calculateMaxInfluences o.bone_influences) ∧
    readInfluences g = .ok (o.bone_influences.map cutBone) := by
  simp only [createRiggingGroup] at h
  cases hb : collect (fun i => (Weight.fromWeights i.vertex_weights).map fun d =>
      (⟨ssbhText i.bone_name, d⟩ : Mesh.BoneBuffer Wt)) o.bone_influences with
  | error e => rw [hb] at h; cases h
  | ok bs =>
    rw [hb] at h
    cases h
    exact ⟨rfl, rfl, rfl, readInfluences_back hb⟩

theorem createRiggingGroup_key {o : MeshObjectData} {g : Mesh.RiggingGroup Wt} (h : createRiggingGroup o = .ok g) :
    g.mesh_object_name = ssbhText o.name ∧ g.mesh_object_subindex = o.subindex := by
  simp only [createRiggingGroup] at h
  cases hb : collect (fun i => (Weight.fromWeights i.vertex_weights).map fun d =>
      (⟨ssbhText i.bone_name, d⟩ : Mesh.BoneBuffer Wt)) o.bone_influences with
  | error e => rw [hb] at h; cases h
  | ok bs =>
    rw [hb] at h
    cases h
    exact ⟨rfl, rfl⟩

/-- Reading the groups of a name and subindex, before sorting. -/
theorem collect_groups [LawWeight Wt] {name : String} {subindex : UInt64} : ∀ {objects : List MeshObjectData}
    {gs : List (Mesh.RiggingGroup Wt)}, collect createRiggingGroup objects = .ok gs →
    collect readInfluences (gs.filter fun g => ssbhToStr g.mesh_object_name = some name ∧ g.mesh_object_subindex = subindex)
      = .ok ((objects.filter fun o => cutNul o.name = name ∧ o.subindex = subindex).map fun o => o.bone_influences.map cutBone)
  | [], gs, h => by simp only [collect, Except.ok.injEq] at h; subst h; rfl
  | o :: os, gs, h => by
    simp only [collect] at h
    split at h
    · cases h
    rename_i g hg
    split at h
    · cases h
    rename_i gs' hgs
    cases h
    have ih := collect_groups (name := name) (subindex := subindex) hgs
    obtain ⟨h1, h2, -, h4⟩ := createRiggingGroup_ok hg
    simp only [List.filter_cons, h1, h2, ssbhToStr_ssbhText, Option.some.injEq]
    split
    · simp only [collect, h4, ih, List.map_cons]
    · exact ih

omit [Weight Wt] in
theorem groupKey_of {g : Mesh.RiggingGroup Wt} {name : String} (h : ssbhToStr g.mesh_object_name = some name) :
    (groupKey g).1 = textBytes name := by
  simp [groupKey, toStringLossy, h]

/-- The influences read for a name and subindex. -/
theorem readRiggingData_back [LawWeight Wt] {objects : List MeshObjectData} {gs : List (Mesh.RiggingGroup Wt)}
    (h : createRiggingBuffers objects = .ok gs) (name : String) (subindex : UInt64) :
    readRiggingData gs name subindex =
      .ok ((objects.filter fun o => cutNul o.name = name ∧ o.subindex = subindex).flatMap fun o => o.bone_influences.map cutBone) := by
  simp only [createRiggingBuffers] at h
  cases hc : collect (createRiggingGroup (Wt := Wt)) objects with
  | error e => rw [hc] at h; cases h
  | ok gs0 =>
    rw [hc] at h
    cases h
    simp only [readRiggingData]
    rw [sortBy_filter, collect_groups hc]
    · simp [Except.map, List.flatMap]
    · intro x y hx hy
      simp only [decide_eq_true_eq] at hx hy
      have : groupKey x = groupKey y := by
        apply Prod.ext
        · rw [groupKey_of hx.1, groupKey_of hy.1]
        · simp [groupKey, hx.2, hy.2]
      rw [this]
      exact keyLe_refl _

theorem filter_unique {objects : List MeshObjectData}
    (hd : objects.Pairwise fun a b => ¬ (cutNul a.name = cutNul b.name ∧ a.subindex = b.subindex)) {o : MeshObjectData}
    (ho : o ∈ objects) : (objects.filter fun p => cutNul p.name = cutNul o.name ∧ p.subindex = o.subindex) = [o] := by
  induction objects with
  | nil => cases ho
  | cons p ps ih =>
    obtain ⟨h1, h2⟩ := List.pairwise_cons.mp hd
    simp only [List.mem_cons] at ho
    rcases ho with rfl | ho
    · simp only [List.filter_cons, and_self, decide_true, if_true, List.cons.injEq, true_and]
      refine List.filter_eq_nil_iff.mpr ?_
      intro q hq
      have := h1 q hq
      simp only [decide_eq_true_eq]
      rintro ⟨e1, e2⟩
      exact this ⟨e1.symm, e2.symm⟩
    · have := h1 o ho
      simp only [List.filter_cons, decide_eq_true_eq, this, if_false]
      exact ih h2 ho

end Groups

/-! ## Number of influences -/

/-- The count of a vertex. -/
def look (v : UInt32) : List (UInt32 × Nat) → Nat
  | [] => 0
  | (k, n) :: rest => if k = v then n else look v rest

theorem look_countUp (u v : UInt32) : ∀ c, look v (countUp u c) = look v c + if u = v then 1 else 0
  | [] => by simp [countUp, look]
  | (k, n) :: rest => by
    simp only [countUp]
    by_cases hk : k = u
    · subst hk
      simp only [if_true, look]
      split <;> simp
    · simp only [hk, if_false, look]
      split
      · rename_i hkv
        subst hkv
        simp [Ne.symm hk]
      · exact look_countUp u v rest

theorem countUp_keys (u : UInt32) : ∀ c, (c.map (·.1)).Nodup →
    ((countUp u c).map (·.1)).Nodup ∧ ∀ k, k ∈ (countUp u c).map (·.1) → k = u ∨ k ∈ c.map (·.1)
  | [], _ => by simp [countUp]
  | (k, n) :: rest, h => by
    simp only [List.map_cons, List.nodup_cons] at h
    obtain ⟨ih1, ih2⟩ := countUp_keys u rest h.2
    simp only [countUp]
    split
    · rename_i hk
      subst hk
      exact ⟨by simpa using h, by intro k' hk'; exact .inr (by simpa using hk')⟩
    · rename_i hk
      refine ⟨?_, ?_⟩
      · simp only [List.map_cons, List.nodup_cons]
        refine ⟨?_, ih1⟩
        intro hm
        rcases ih2 k hm with e | e
        · exact hk e
        · exact h.1 e
      · intro k' hk'
        simp only [List.map_cons, List.mem_cons] at hk' ⊢
        rcases hk' with rfl | hk'
        · exact .inr (.inl rfl)
        · rcases ih2 k' hk' with e | e
          · exact .inl e
          · exact .inr (.inr e)

theorem look_of_mem {v : UInt32} {n : Nat} : ∀ {c : List (UInt32 × Nat)}, (c.map (·.1)).Nodup → (v, n) ∈ c → look v c = n
  | [], _, h => by cases h
  | (k, m) :: rest, hn, h => by
    simp only [List.map_cons, List.nodup_cons] at hn
    simp only [List.mem_cons, Prod.mk.injEq] at h
    simp only [look]
    rcases h with ⟨rfl, rfl⟩ | h
    · simp
    · have : k ≠ v := by
        rintro rfl
        exact hn.1 (List.mem_map.mpr ⟨_, h, rfl⟩)
      simp only [this, if_false]
      exact look_of_mem hn.2 h

theorem mem_of_look {v : UInt32} : ∀ {c : List (UInt32 × Nat)}, look v c ≠ 0 → (v, look v c) ∈ c
  | [], h => absurd rfl h
  | (k, m) :: rest, h => by
    simp only [look] at h ⊢
    split
    · rename_i hk
      subst hk
      simp
    · rename_i hk
      simp only [hk, if_false] at h
      exact List.mem_cons_of_mem _ (mem_of_look h)

theorem mem_distinct {v : UInt32} : ∀ {l : List UInt32}, v ∈ distinct l ↔ v ∈ l
  | [] => by simp [distinct]
  | u :: l => by
    simp only [distinct]
    split
    · rename_i h
      rw [mem_distinct, List.mem_cons]
      constructor
      · exact .inr
      · rintro (rfl | h')
        · exact mem_distinct.mp h
        · exact h'
    · simp only [List.mem_cons, mem_distinct (l := l)]

theorem count_distinct (v : UInt32) : ∀ l : List UInt32, (distinct l).count v = if v ∈ l then 1 else 0
  | [] => by simp [distinct]
  | u :: l => by
    have ih := count_distinct v l
    simp only [distinct]
    split
    · rename_i h
      rw [ih]
      rw [mem_distinct] at h
      by_cases hv : v = u
      · subst hv; simp [h]
      · simp [hv]
    · rename_i h
      rw [mem_distinct] at h
      rw [List.count_cons, ih]
      by_cases hv : u = v
      · subst hv; simp [h]
      · simp [hv, Ne.symm hv]

theorem foldl_countUp (v : UInt32) : ∀ (l : List UInt32) (c : List (UInt32 × Nat)),
    look v (l.foldl (fun c u => countUp u c) c) = look v c + l.count v
  | [], c => by simp
  | u :: l, c => by
    rw [List.foldl_cons, foldl_countUp v l, look_countUp, List.count_cons]
    by_cases h : u = v
    · subst h; simp; omega
    · simp [h]

theorem foldl_countUp_keys : ∀ (l : List UInt32) (c : List (UInt32 × Nat)), (c.map (·.1)).Nodup →
    ((l.foldl (fun c u => countUp u c) c).map (·.1)).Nodup
  | [], _, h => h
  | u :: l, c, h => foldl_countUp_keys l _ (countUp_keys u c h).1

/-- The influences with a vertex. -/
def influencing (v : UInt32) (l : List BoneInfluence) : List BoneInfluence :=
  l.filter fun i => v ∈ i.vertex_weights.map (·.vertex_index)

def counts (l : List BoneInfluence) (c : List (UInt32 × Nat)) : List (UInt32 × Nat) :=
  l.foldl (fun counts i =>
    (distinct (i.vertex_weights.map (·.vertex_index))).foldl (fun counts v => countUp v counts) counts) c

theorem look_counts (v : UInt32) : ∀ (l : List BoneInfluence) (c : List (UInt32 × Nat)),
    look v (counts l c) = look v c + (influencing v l).length
  | [], c => by simp [counts, influencing]
  | i :: l, c => by
    have ih := look_counts v l ((distinct (i.vertex_weights.map (·.vertex_index))).foldl (fun c v => countUp v c) c)
    rw [show counts (i :: l) c =
      counts l ((distinct (i.vertex_weights.map (·.vertex_index))).foldl (fun c v => countUp v c) c) from rfl, ih,
      foldl_countUp, count_distinct]
    simp only [influencing, List.filter_cons]
    by_cases hv : v ∈ i.vertex_weights.map (·.vertex_index)
    · simp only [hv, if_true, decide_true, List.length_cons]; omega
    · simp [hv]

theorem counts_keys : ∀ (l : List BoneInfluence) (c : List (UInt32 × Nat)), (c.map (·.1)).Nodup →
    ((counts l c).map (·.1)).Nodup
  | [], _, h => h
  | _ :: l, _, h => counts_keys l _ (foldl_countUp_keys _ _ h)

theorem foldl_max : ∀ (l : List Nat) (m : Nat), m ≤ l.foldl max m ∧ (∀ x ∈ l, x ≤ l.foldl max m) ∧
    (l.foldl max m = m ∨ l.foldl max m ∈ l)
  | [], m => by simp
  | x :: l, m => by
    obtain ⟨h1, h2, h3⟩ := foldl_max l (max m x)
    simp only [List.foldl_cons, List.mem_cons]
    refine ⟨by omega, ?_, ?_⟩
    · rintro y (rfl | hy)
      · omega
      · exact h2 y hy
    · rcases h3 with h3 | h3
      · by_cases hx : x ≤ m
        · left; omega
        · right; left; omega
      · exact .inr (.inr h3)

theorem calculateMaxInfluences_spec (l : List BoneInfluence) :
    (∀ v, (influencing v l).length ≤ calculateMaxInfluences l) ∧
    (calculateMaxInfluences l = 0 ∨ ∃ v, (influencing v l).length = calculateMaxInfluences l) := by
  have hdef : calculateMaxInfluences l = ((counts l []).map (·.2)).foldl max 0 := rfl
  have hk := counts_keys l [] (by simp)
  have hl : ∀ v, look v (counts l []) = (influencing v l).length := fun v => by rw [look_counts]; simp [look]
  obtain ⟨-, h2, h3⟩ := foldl_max ((counts l []).map (·.2)) 0
  rw [← hdef] at h2 h3
  refine ⟨?_, ?_⟩
  · intro v
    by_cases h0 : (influencing v l).length = 0
    · omega
    · apply h2
      have := mem_of_look (v := v) (c := counts l []) (by rw [hl]; exact h0)
      rw [hl] at this
      exact List.mem_map.mpr ⟨_, this, rfl⟩
  · rcases h3 with h3 | h3
    · exact .inl h3
    · right
      obtain ⟨⟨v, n⟩, hm, hn⟩ := List.mem_map.mp h3
      exact ⟨v, by rw [← hl, look_of_mem hk hm]; exact hn⟩

end MeshData
end Verif
