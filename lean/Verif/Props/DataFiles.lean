import Verif.Data.DataFiles
import Verif.Props.Files
import Verif.Props.PlainFiles
import Verif.Props.AdjData
import Verif.Props.Conversions
import Verif.Props.SkelData
import Verif.Props.MeshExData
import Verif.Props.AnimFiles
/-!
# Files of data types

C45: writing data to a file and reading the file. C47: reading a file of any origin, writing it and reading it again.
-/

namespace Verif

theorem liftRead_ok {x : Except RErr α} {v : α} : liftRead x = .ok v ↔ x = .ok v := by
  cases x <;> simp [liftRead]

theorem liftWrite_ok {x : Except WErr α} {v : α} : liftWrite x = .ok v ↔ x = .ok v := by
  cases x <;> simp [liftWrite]

theorem map_ok {f : α → β} {x : Except ε α} {y : β} (h : x.map f = .ok y) : ∃ v, x = .ok v ∧ f v = y := by
  cases x with
  | error e => cases h
  | ok v => cases h; exact ⟨v, rfl, rfl⟩

namespace Props

/-! ## C45 -/

theorem C45_modl (d : ModlData) (bytes : Bytes) (h : d.write = .ok bytes) :
    ModlData.read bytes = .ok { mapModlText cutNul d with major_version := 1, minor_version := 7 } := by
  have := C01_format_round_trip d.toModl bytes (liftWrite_ok.mp h)
  rw [ModlData.read, this, ← C32_round_trip]
  rfl

theorem C45_hlpb (d : HlpbData) (bytes : Bytes) (h : d.write = .ok bytes) :
    HlpbData.read bytes = .ok ⟨1, 1, d.aim_constraints.map (mapAimText cutNul),
      d.orient_constraints.map (mapOrientText cutNul)⟩ := by
  have := C01_format_round_trip d.toHlpb bytes (liftWrite_ok.mp h)
  rw [HlpbData.read, this, ← C31_round_trip]
  rfl

theorem C45_matl (d : MatlData) (bytes : Bytes) (h : d.write = .ok bytes) :
    (d.major_version = 1 ∧ d.minor_version = 6) ∧
    MatlData.read bytes = .ok ⟨1, 6, d.entries.map (mapEntryText cutNul)⟩ := by
  unfold MatlData.write at h
  split at h
  · cases h
  · rename_i f hf
    by_cases hv : d.major_version = 1 ∧ d.minor_version = 6
    · obtain ⟨f', hf', he⟩ := C38_round_trip d hv
      rw [hf'] at hf
      cases hf
      refine ⟨hv, ?_⟩
      rw [MatlData.read, C01_format_round_trip _ bytes (liftWrite_ok.mp h), ← he]
      rfl
    · rw [C38_other_versions d hv] at hf
      cases hf

theorem C45_skel (O : MatOps Matrix4x4) (d : SkelData) (bytes : Bytes) (h : d.write O = .ok bytes) :
    SkelData.read bytes = .ok ⟨1, 0, d.bones.map fun b =>
      { b with name := cutNul b.name, parent_index := storedParent b.parent_index }⟩ := by
  unfold SkelData.write at h
  split at h
  · rename_i f hf
    rw [SkelData.read, C01_format_round_trip _ bytes (liftWrite_ok.mp h), ← C35_round_trip O d f hf]
    rfl
  · cases h

/-- For fewer than 2^32 groups and flags. -/
theorem C45_meshex (sphereOf : List Mesh.BoundingSphere → Mesh.BoundingSphere) (d : MeshExData) (bytes : Bytes)
    (h : d.write sphereOf = .ok bytes) (hg : d.mesh_object_groups.length < 2 ^ 32)
    (hf : (d.mesh_object_groups.map (·.entry_flags.length)).sum < 2 ^ 32) :
    MeshExData.read bytes = .ok ⟨d.mesh_object_groups.map fun g =>
      { g with
        mesh_object_full_name := cutNul g.mesh_object_full_name
        mesh_object_name := cutNul g.mesh_object_name }⟩ := by
  unfold MeshExData.write at h
  split at h
  · cases h
  · rename_i b hb
    cases h
    obtain ⟨groups, entries, flags, e1, e2, e3, l1, _, l2, l3⟩ := C33_entries sphereOf d (Nat.le_of_lt hg)
    have hr := (C15_meshex_file _ _ hb (by rw [e2]; simp only [countOf, Option.getD_some]; omega)
      (by rw [e3]; simp only [countOf, Option.getD_some]; omega)
      (by rw [e1]; simp only [countOf, Option.getD_some]; omega)).2.2
    rw [MeshExData.read, hr, ← C33_round_trip sphereOf d (Nat.le_of_lt hg)]
    rfl

/-- For fewer than 2^32 entries, object indices below 2^32 and byte offsets below 2^32. -/
theorem C45_adj (d : AdjData) (bytes : Bytes) (h : d.write = .ok bytes) (hn : d.entries.length < 2 ^ 32)
    (hi : ∀ e ∈ d.entries, e.mesh_object_index < 2 ^ 32)
    (ho : ∀ p e q, d.entries = p ++ e :: q → 2 * adjTotal p < 2 ^ 32) : AdjData.read bytes = .ok d := by
  have hl : ∀ (es : List AdjEntryData) (n : Nat), (AdjData.scanEntries n es).length = es.length := by
    intro es
    induction es with
    | nil => intro n; rfl
    | cons e es ih => intro n; rw [AdjData.scanEntries, List.length_cons, ih, List.length_cons]
  have := C17_adj_round_trip d.toAdj (by rw [AdjData.toAdj]; simp only [hl]; exact hn) bytes (liftWrite_ok.mp h)
  rw [AdjData.read, this]
  simp only [liftRead, C18_identity d hi ho]

/-- For fewer than 2^32 frames in each track and less than 4 GiB of track data. -/
theorem C45_anim (F : FloatOps) (d : AnimData) (bytes : Bytes) (h : d.write F = .ok bytes)
    (hl : ∀ t ∈ dataTracks d.groups, t.values.len < 2 ^ 32)
    (hb : ∀ anim groups buffer, AnimData.create F d = .ok anim → parts anim = some (groups, buffer) →
      buffer.length < 2 ^ 32) :
    ∃ f, (∀ t, Kept F t (f t)) ∧
      AnimData.read F bytes = some (.ok { d with groups := mapTracks f d.groups }) := by
  unfold AnimData.write at h
  split at h
  · cases h
  · rename_i a ha
    obtain ⟨f, hf, hr⟩ := C28_structure_preserved F d a ha hl (fun groups buffer => hb a groups buffer ha)
    refine ⟨f, hf, ?_⟩
    rw [AnimData.read, C01_format_round_trip a bytes (liftWrite_ok.mp h)]
    simp only [liftRead, hr]

example : ∃ bytes, smallAnim.write simpleOps = .ok bytes := isOk_iff.mp (by decide +kernel)

example : ∃ bytes, sampleModl.write = .ok bytes ∧ ModlData.read bytes = .ok sampleModl := by
  obtain ⟨bytes, h⟩ : ∃ b, sampleModl.write = .ok b := isOk_iff.mp (by decide +kernel)
  refine ⟨bytes, h, ?_⟩
  rw [C45_modl _ _ h, ← C32_round_trip, C32_identity _ (by decide) (by decide +kernel)]

example : ∃ bytes, sampleMatl.write = .ok bytes := isOk_iff.mp (by decide +kernel)
example : ∃ bytes, sampleHlpb.write = .ok bytes := isOk_iff.mp (by decide +kernel)
example : ∃ bytes, chainSkel.write countOps = .ok bytes := isOk_iff.mp (by decide +kernel)
example : ∃ bytes, sampleMeshEx.write (fun _ => ⟨⟨0, 0, 0⟩, 0⟩) = .ok bytes := isOk_iff.mp (by decide +kernel)
example : ∃ bytes, exAdjData.write = .ok bytes := isOk_iff.mp (by decide +kernel)

/-! ## C47 -/

/-- Whatever file the data was read from, if it can be written at all then reading what was written gives the same
data. -/
theorem C47_modl (file : Bytes) (d : ModlData) (hr : ModlData.read file = .ok d) (bytes : Bytes)
    (hw : d.write = .ok bytes) : ModlData.read bytes = .ok d := by
  obtain ⟨m, _, rfl⟩ := map_ok hr
  rw [C45_modl _ _ hw]
  cases m with
  | V17 m =>
    simp only [ModlData.ofModl, Modl.format, mapModlText, cutNul_toStringLossy, List.map_map, Option.map_map]
    have h : cutNul ∘ toStringLossy = toStringLossy := funext cutNul_toStringLossy
    rw [h]
    congr 2
    apply List.map_congr_left
    intro e _
    simp [ModlData.ModlEntryData.ofEntry, cutNul_toStringLossy]

theorem C47_hlpb (file : Bytes) (d : HlpbData) (hr : HlpbData.read file = .ok d) (bytes : Bytes)
    (hw : d.write = .ok bytes) : HlpbData.read bytes = .ok d := by
  obtain ⟨m, _, rfl⟩ := map_ok hr
  rw [C45_hlpb _ _ hw]
  cases m with
  | V11 m =>
    simp only [HlpbData.ofHlpb, List.map_map]
    congr 2
    · apply List.map_congr_left
      intro e _
      simp [HlpbData.AimConstraintData.ofAim, mapAimText, cutNul_toStringLossy]
    · apply List.map_congr_left
      intro e _
      simp [HlpbData.OrientConstraintData.ofOrient, mapOrientText, cutNul_toStringLossy]

theorem C47_matl (file : Bytes) (d : MatlData) (hr : MatlData.read file = .ok d) (bytes : Bytes)
    (hw : d.write = .ok bytes) : MatlData.read bytes = .ok d := by
  obtain ⟨m, _, rfl⟩ := map_ok hr
  obtain ⟨hv, h⟩ := C45_matl _ _ hw
  rw [h]
  cases m with
  | V15 m => exact absurd hv (by simp [MatlData.ofMatl, Matl.format])
  | V16 m =>
    simp only [MatlData.ofMatl, Matl.format, List.map_map]
    congr 2
    apply List.map_congr_left
    intro e _
    simp only [Function.comp, MatlData.MatlEntryData.ofV16, mapEntryText, cutNul_toStringLossy,
      MatlData.MatlEntryData.mk.injEq, true_and, and_true]
    apply map_id_of_forall
    intro t ht
    simp only [MatlData.getV16, List.mem_filterMap] at ht
    obtain ⟨a, _, ha⟩ := ht
    rw [Option.map_eq_some_iff] at ha
    obtain ⟨s, hs, rfl⟩ := ha
    rw [Option.bind_eq_some_iff] at hs
    obtain ⟨p, _, hp⟩ := hs
    split at hp
    · cases hp
      simp [cutNul_toStringLossy]
    · cases hp

theorem C47_skel (O : MatOps Matrix4x4) (file : Bytes) (d : SkelData) (hr : SkelData.read file = .ok d)
    (bytes : Bytes) (hw : d.write O = .ok bytes) : SkelData.read bytes = .ok d := by
  obtain ⟨m, _, rfl⟩ := map_ok hr
  rw [C45_skel O _ _ hw]
  cases m with
  | V10 m =>
    simp only [SkelData.ofSkel, Skel.format, List.map_map]
    congr 2
    apply List.map_congr_left
    rintro ⟨e, t⟩ _
    simp only [Function.comp, SkelData.createBoneData, cutNul_toStringLossy, SkelData.BoneData.mk.injEq, true_and,
      and_true]
    split
    · rfl
    · rename_i hn
      have h2 := e.parent_index.toInt_lt
      have h3 : e.parent_index.toInt.toNat < 32768 := by omega
      rw [storedParent, Nat.mod_eq_of_lt (by omega), if_pos h3]

theorem readElems_len {a : Codec α} : ∀ {n : Nat} {b : Bytes} {p : Nat} {vs : List α} {q : Nat},
    readElems a n b p = .ok (vs, q) → vs.length = n
  | 0, _, _, _, _, h => by cases h; rfl
  | n + 1, b, p, vs, q, h => by
    rw [readElems] at h
    split at h
    · cases h
    · split at h
      · cases h
      · rename_i h'
        cases h
        rw [List.length_cons, readElems_len h']

/-- The lengths of the data read by consecutive offsets add up to at most the last offset. -/
theorem readEntries_total (buf : List Int16) : ∀ (es : List Adj.AdjEntry) (ds : List AdjEntryData),
    AdjData.readEntries buf es = .ok ds → ds.length = es.length ∧ (∀ d ∈ ds, d.mesh_object_index < 2 ^ 32) ∧
    ∀ first rest, es = first :: rest → ∀ p d q, ds = p ++ d :: q →
      AdjData.offsetToIndex first.index_buffer_offset + adjTotal p < 2 ^ 31
  | [], ds, h => by
    cases h
    exact ⟨rfl, by simp, by simp⟩
  | [e], ds, h => by
    rw [AdjData.readEntries] at h
    split at h
    · cases h
      refine ⟨rfl, by simpa using e.mesh_object_index.toNat_lt, ?_⟩
      intro first rest he p d q hd
      cases he
      cases p with
      | nil =>
        have := e.index_buffer_offset.toNat_lt
        simp only [AdjData.offsetToIndex, adjTotal, List.map_nil, List.sum_nil]
        omega
      | cons x p =>
        have := congrArg List.length hd
        simp at this
    · cases h
  | e :: e' :: es, ds, h => by
    rw [AdjData.readEntries] at h
    split at h
    · cases h
    · rename_i vs hvs
      split at h
      · cases h
      · rename_i rest hr
        cases h
        obtain ⟨h1, h2, h3⟩ := readEntries_total buf (e' :: es) rest hr
        refine ⟨by simp [h1], ?_, ?_⟩
        · intro d hd
          cases List.mem_cons.mp hd with
          | inl he => rw [he]; exact e.mesh_object_index.toNat_lt
          | inr hm => exact h2 d hm
        · intro first r he p d q hd
          cases he
          have hoff := e.index_buffer_offset.toNat_lt
          cases p with
          | nil =>
            simp only [AdjData.offsetToIndex, adjTotal, List.map_nil, List.sum_nil]
            omega
          | cons x p =>
            simp only [List.cons_append, List.cons.injEq] at hd
            obtain ⟨rfl, hd⟩ := hd
            have := h3 e' es rfl p d q hd
            unfold AdjData.sliceGet at hvs
            split at hvs
            · rename_i hle
              cases hvs
              simp only [adjTotal, List.map_cons, List.sum_cons, List.length_take, List.length_drop] at this ⊢
              omega
            · cases hvs

theorem C47_adj (file : Bytes) (d : AdjData) (hr : AdjData.read file = .ok d) (bytes : Bytes)
    (hw : d.write = .ok bytes) : AdjData.read bytes = .ok d := by
  unfold AdjData.read at hr
  split at hr
  · cases hr
  · rename_i a ha
    split at hr
    · cases hr
    · rename_i hd
      cases hr
      have hcount : a.entries.length < 2 ^ 32 := by
        have ha := liftRead_ok.mp ha
        unfold Adj.read at ha
        split at ha
        · cases ha
        · rename_i count _ _
          split at ha
          · cases ha
          · rename_i he
            cases ha
            rw [readElems_len he]
            exact count.toNat_lt
      unfold AdjData.ofAdj at hd
      split at hd
      · cases hd
      · rename_i es hes
        cases hd
        obtain ⟨h1, h2, h3⟩ := readEntries_total _ _ _ hes
        refine C45_adj _ _ hw (by simpa [h1] using hcount) h2 ?_
        intro p e q he
        cases hae : a.entries with
        | nil =>
          rw [hae] at h1
          simp only at he
          rw [he] at h1
          simp at h1
        | cons first rest =>
          have := h3 first rest hae p e q he
          omega

theorem absPtr_read {n : Nat} {a : Codec α} {b : Bytes} {p q : Nat} {v : α}
    (h : (absPtr n a).read b p = .ok (some v, q)) : ∃ p' q', a.read b p' = .ok (v, q') := by
  simp only [absPtr] at h
  repeat' split at h
  all_goals cases h
  all_goals exact ⟨_, _, by assumption⟩

theorem pair_read {a : Codec α} {c : Codec β} {b : Bytes} {p q : Nat} {v : α × β}
    (h : (pair a c).read b p = .ok (v, q)) : ∃ q', a.read b p = .ok (v.1, q') ∧ c.read b q' = .ok (v.2, q) := by
  simp only [pair] at h
  repeat' split at h
  all_goals cases h
  all_goals exact ⟨_, by assumption, by assumption⟩

theorem meshEx_read_counts {b : Bytes} {v : MeshEx} (h : MeshEx.read b = .ok v) :
    countOf v.mesh_object_groups < 2 ^ 32 ∧ countOf v.entries < 2 ^ 32 := by
  unfold MeshEx.read at h
  split at h
  · cases h
  · rename_i x entryCount groupCount p _
    split at h
    · cases h
    · rename_i allData groups entries flags unk1 q hr
      cases h
      unfold MeshEx.rest at hr
      obtain ⟨q1, _, hr⟩ := pair_read hr
      obtain ⟨q2, hg, hr⟩ := pair_read hr
      obtain ⟨q3, he, _⟩ := pair_read hr
      constructor
      · cases groups with
        | none => exact Nat.pow_pos (by decide)
        | some g =>
          obtain ⟨_, _, h⟩ := absPtr_read hg
          simp only [countOf, Option.getD_some, readElems_len h]
          exact groupCount.toNat_lt
      · cases entries with
        | none => exact Nat.pow_pos (by decide)
        | some g =>
          obtain ⟨_, _, h⟩ := absPtr_read he
          simp only [countOf, Option.getD_some, readElems_len h]
          exact entryCount.toNat_lt

/-- Every element has at most one key. -/
theorem sum_count_le (key : α → Nat) (l : List α) : ∀ n : Nat,
    ((List.range n).map fun i => (l.filter fun x => key x == i).length).sum = (l.filter fun x => key x < n).length
  | 0 => by simp
  | n + 1 => by
    rw [List.range_succ, List.map_append, List.sum_append, sum_count_le key l n]
    simp only [List.map_cons, List.map_nil, List.sum_cons, List.sum_nil, Nat.add_zero]
    induction l with
    | nil => rfl
    | cons x l ih =>
      simp only [List.filter_cons]
      by_cases h1 : key x < n
      · have h2 : ¬key x = n := by omega
        have h3 : key x < n + 1 := by omega
        simp only [h1, h2, h3, decide_true, beq_iff_eq, if_true, if_false, List.length_cons]
        omega
      · by_cases h2 : key x = n
        · have h3 : key x < n + 1 := by omega
          rw [if_neg (by simpa using h1), if_pos (by simpa using h2), if_pos (by simpa using h3)]
          simp only [List.length_cons]
          omega
        · have h3 : ¬key x < n + 1 := by omega
          simp only [h1, h2, h3, decide_false, beq_iff_eq, if_false, Bool.false_eq_true]
          exact ih

theorem positions_length (p : α → Bool) (l : List α) : (MeshExData.positions p l).length = (l.filter p).length := by
  have : ∀ (l : List α) (n : Nat), ((l.zipIdx n).filter fun x => p x.1).length = (l.filter p).length := by
    intro l
    induction l with
    | nil => intro n; rfl
    | cons x l ih =>
      intro n
      rw [List.zipIdx_cons, List.filter_cons, List.filter_cons]
      cases p x <;> simp [ih]
  rw [MeshExData.positions, List.length_map, this]

theorem sum_le_sum {f g : α → Nat} {l : List α} (h : ∀ x ∈ l, f x ≤ g x) : (l.map f).sum ≤ (l.map g).sum := by
  induction l with
  | nil => exact Nat.le_refl _
  | cons x l ih =>
    have h1 := h x List.mem_cons_self
    have h2 := ih fun y hy => h y (List.mem_cons_of_mem _ hy)
    simp only [List.map_cons, List.sum_cons]
    omega

theorem map_snd_zipIdx (l : List α) (f : Nat → β) : (l.zipIdx).map (fun x => f x.2) = (List.range l.length).map f := by
  have : ∀ (l : List α) (n : Nat), (l.zipIdx n).map (fun x => f x.2) = (List.range' n l.length).map f := by
    intro l
    induction l with
    | nil => intro n; rfl
    | cons x l ih => intro n; simp [List.range'_succ, ih]
  rw [this, List.range_eq_range']

theorem ofMeshEx_flags (m : MeshEx) :
    ((MeshExData.ofMeshEx m).mesh_object_groups.map (·.entry_flags.length)).sum ≤ countOf m.entries := by
  simp only [MeshExData.ofMeshEx, List.map_map]
  refine Nat.le_trans (sum_le_sum (g := fun x : MeshEx.MeshObjectGroup × Nat =>
    ((m.entries.getD []).filter fun e => e.mesh_object_group_index.toNat == x.2).length) ?_) ?_
  · rintro ⟨g, i⟩ _
    refine Nat.le_trans (List.length_filterMap_le _ _) ?_
    rw [positions_length]
  · rw [map_snd_zipIdx _ (fun i =>
      ((m.entries.getD []).filter fun e => e.mesh_object_group_index.toNat == i).length), sum_count_le]
    exact List.length_filter_le _ _

theorem nameText_stable (p : Option CStr) : cutNul (MeshExData.nameText p) = MeshExData.nameText p := by
  apply cutNul_of_not_mem
  unfold MeshExData.nameText
  cases p with
  | none => simp
  | some c =>
    simp only [Option.bind_some]
    cases h : c.toStr with
    | none => simp
    | some s => exact toStr_nulFree h

theorem C47_meshex (sphereOf : List Mesh.BoundingSphere → Mesh.BoundingSphere) (file : Bytes) (d : MeshExData)
    (hr : MeshExData.read file = .ok d) (bytes : Bytes) (hw : d.write sphereOf = .ok bytes) :
    MeshExData.read bytes = .ok d := by
  obtain ⟨m, hm, rfl⟩ := map_ok hr
  have hc := meshEx_read_counts (liftRead_ok.mp hm)
  rw [C45_meshex sphereOf _ _ hw (by simpa [MeshExData.ofMeshEx, countOf] using hc.1)
    (Nat.lt_of_le_of_lt (ofMeshEx_flags m) hc.2)]
  have : (MeshExData.ofMeshEx m).mesh_object_groups.map (fun g =>
      { g with
        mesh_object_full_name := cutNul g.mesh_object_full_name
        mesh_object_name := cutNul g.mesh_object_name }) = (MeshExData.ofMeshEx m).mesh_object_groups := by
    apply map_id_of_forall
    intro g hg
    simp only [MeshExData.ofMeshEx, List.mem_map] at hg
    obtain ⟨x, _, rfl⟩ := hg
    simp only [nameText_stable]
  rw [this]

/-- A file which reads as MeshEx data. -/
example : ∃ file d bytes, MeshExData.read file = .ok d ∧ d.write (fun _ => ⟨⟨0, 0, 0⟩, 0⟩) = .ok bytes := by
  obtain ⟨b, h⟩ : ∃ b, sampleMeshEx.write (fun _ => ⟨⟨0, 0, 0⟩, 0⟩) = .ok b := isOk_iff.mp (by decide +kernel)
  have hr := C45_meshex _ _ _ h (by decide) (by decide)
  refine ⟨b, _, b, hr, ?_⟩
  rw [← h]
  exact congrArg (MeshExData.write _) (by decide +kernel)

end Props
end Verif
