import Verif.Props.MatlResave
/-!
# C117: files that are not changed

Which modl, hlpb, matl and skel files of any program have the same contents after opening them as data and saving them.
-/

namespace Verif.Props

/-- A string which is not null and valid UTF-8. -/
def IsUtf8 (s : SsbhString) : Prop := ∃ c t, s = some c ∧ c.bytes = textBytes t

theorem cstr_ext {c c' : CStr} (h : c.bytes = c'.bytes) : c = c' := by
  cases c; cases c'; cases h; rfl

theorem keptString_self {s : SsbhString} : keptString s s ↔ IsUtf8 s := by
  constructor
  · rintro ⟨t, -, c, rfl, h⟩
    exact ⟨c, t, rfl, h⟩
  · rintro ⟨c, t, rfl, h⟩
    exact ⟨t, .inl ⟨c, rfl, h.symm⟩, c, rfl, h⟩

theorem keptString_eq {s s' : SsbhString} (h : keptString s s') (hu : IsUtf8 s) : s' = s := by
  obtain ⟨t, ht, c', rfl, hb⟩ := h
  obtain ⟨c, u, rfl, hc⟩ := hu
  rcases ht with ⟨c2, hc2, h2⟩ | ⟨-, h2⟩
  · cases hc2
    rw [cstr_ext (hb.trans h2)]
  · exact absurd ⟨u, hc.symm⟩ (h2 c rfl)

theorem text_same {s : SsbhString} : ssbhText (toStringLossy s) = s ↔ IsUtf8 s := by
  have h := toStringLossy_isText s
  constructor
  · intro e
    rw [e] at h
    exact keptString_self.mp h
  · exact keptString_eq h

theorem map_same {f : α → α} : ∀ {l : List α}, l.map f = l ↔ ∀ a ∈ l, f a = a
  | [] => by simp
  | a :: l => by simp [map_same (l := l)]

/-! ## Modl -/

/-- All strings of a modl file. -/
def modlStrings (m : Modl.V17Data) : List SsbhString :=
  [m.model_name, m.skeleton_file_name, m.mesh_file_name] ++ m.material_file_names ++ m.animation_file_name.toList ++
    m.entries.flatMap fun e => [e.mesh_object_name, e.material_label]

theorem C117_modl (file : Bytes) (m : Modl.V17Data) (hm : readAs Modl file = .ok (.V17 m)) (d : ModlData)
    (hr : ModlData.read file = .ok d) (bytes : Bytes) (hw : d.write = .ok bytes) :
    readAs Modl bytes = .ok (.V17 m) ↔ ∀ s ∈ modlStrings m, IsUtf8 s := by
  rw [ModlData.read, hm] at hr
  cases hr
  rw [C01_format_round_trip (α := Modl) _ bytes (liftWrite_ok.mp hw)]
  obtain ⟨n, sk, mats, an, me, es⟩ := m
  have he : (es.map ModlData.ModlEntryData.ofEntry).map (·.toEntry) = es ↔
      ∀ e ∈ es, IsUtf8 e.mesh_object_name ∧ IsUtf8 e.material_label := by
    rw [List.map_map, map_same]
    refine forall_congr' fun e => forall_congr' fun _ => ?_
    rw [← text_same, ← text_same]
    cases e
    simp [ModlData.ModlEntryData.ofEntry, ModlData.ModlEntryData.toEntry]
  have hmats : (mats.map toStringLossy).map ssbhText = mats ↔ ∀ s ∈ mats, IsUtf8 s := by
    rw [List.map_map, map_same]
    exact forall_congr' fun s => forall_congr' fun _ => text_same
  have han : (an.map toStringLossy).map ssbhText = an ↔ ∀ s ∈ an.toList, IsUtf8 s := by
    cases an with
    | none => simp
    | some s => simpa using text_same
  simp only [ModlData.ofModl, ModlData.toModl, Except.ok.injEq, Modl.V17.injEq, Modl.V17Data.mk.injEq, he, hmats, han, text_same,
    modlStrings, List.mem_append, List.mem_flatMap, List.mem_cons, List.not_mem_nil, or_false]
  constructor
  · rintro ⟨h1, h2, h3, h4, h5, h6⟩ s (((( rfl | rfl | rfl) | h) | h) | ⟨e, hm, (rfl | rfl)⟩)
    exacts [h1, h2, h5, h3 s h, h4 s h, (h6 e hm).1, (h6 e hm).2]
  · intro h
    exact ⟨h _ (by simp), h _ (by simp), fun s hs => h s (.inl (.inl (.inr hs))), fun s hs => h s (.inl (.inr hs)), h _ (by simp),
      fun e hm => ⟨h _ (.inr ⟨e, hm, .inl rfl⟩), h _ (.inr ⟨e, hm, .inr rfl⟩)⟩⟩

/-- A model whose name is null, and one with texts only. -/
example : ∀ n ∈ [none, ssbhText "a"], ∃ file m d bytes, readAs Modl file = .ok (.V17 m) ∧ m.model_name = n ∧
    ModlData.read file = .ok d ∧ d.write = .ok bytes := by
  intro n hn
  let m : Modl.V17Data := ⟨n, ssbhText "s", [ssbhText "m"], none, ssbhText "x", [⟨ssbhText "o", 1, ssbhText "l"⟩]⟩
  have h : isOk (writeAs (Modl.V17 m)) = true ∧ isOk (ModlData.ofModl (.V17 m)).write = true := by
    fin_cases hn <;> decide +kernel
  obtain ⟨file, hf⟩ := isOk_iff.mp h.1
  obtain ⟨bytes, hb⟩ := isOk_iff.mp h.2
  have hr := C01_format_round_trip _ _ hf
  exact ⟨file, m, _, bytes, hr, rfl, by rw [ModlData.read, hr]; rfl, hb⟩

/-! ## Hlpb -/

def aimStrings (a : Hlpb.AimConstraint) : List SsbhString :=
  [a.name, a.aim_bone_name1, a.aim_bone_name2, a.aim_type1, a.aim_type2, a.target_bone_name1, a.target_bone_name2]

def orientStrings (o : Hlpb.OrientConstraint) : List SsbhString :=
  [o.name, o.parent_bone_name1, o.parent_bone_name2, o.source_bone_name, o.target_bone_name]

/-- Text, zeros in the unused fields, and the constraints in the order aim, orient. -/
structure UsualHlpb (m : Hlpb.V11Data) : Prop where
  aim : ∀ a ∈ m.aim_constraints, (∀ s ∈ aimStrings a, IsUtf8 s) ∧
    [a.unk17, a.unk18, a.unk19, a.unk20, a.unk21, a.unk22] = [0, 0, 0, 0, 0, 0]
  orient : ∀ o ∈ m.orient_constraints, ∀ s ∈ orientStrings o, IsUtf8 s
  indices : m.constraint_indices.map (·.toNat) = List.range m.aim_constraints.length ++ List.range m.orient_constraints.length
  types : m.constraint_types =
    m.aim_constraints.map (fun _ => .Aim) ++ m.orient_constraints.map (fun _ => .Orient)

theorem indexRange_nat {n : Nat} (h : n < 2 ^ 32) : (HlpbData.indexRange n).map (·.toNat) = List.range n := by
  unfold HlpbData.indexRange
  rw [UInt32.toNat_ofNat_of_lt' h, List.map_map]
  refine (List.map_congr_left fun i hi => ?_).trans (List.map_id _)
  exact UInt32.toNat_ofNat_of_lt' (Nat.lt_trans (List.mem_range.mp hi) h)

theorem map_toNat_inj : ∀ {l l' : List UInt32}, l.map (·.toNat) = l'.map (·.toNat) → l = l' := by
  intro l l' h
  exact List.map_injective_iff.mpr (fun _ _ => UInt32.toNat_inj.mp) h

theorem C117_hlpb (file : Bytes) (m : Hlpb.V11Data) (hm : readAs Hlpb file = .ok (.V11 m)) (d : HlpbData)
    (hr : HlpbData.read file = .ok d) (bytes : Bytes) (hw : d.write = .ok bytes)
    (ha : m.aim_constraints.length < 2 ^ 32) (ho : m.orient_constraints.length < 2 ^ 32) :
    readAs Hlpb bytes = .ok (.V11 m) ↔ UsualHlpb m := by
  rw [HlpbData.read, hm] at hr
  cases hr
  rw [C01_format_round_trip (α := Hlpb) _ bytes (liftWrite_ok.mp hw)]
  obtain ⟨as, os, is, ts⟩ := m
  have h1 : (as.map HlpbData.AimConstraintData.ofAim).map (·.toAim) = as ↔ ∀ a ∈ as, (∀ s ∈ aimStrings a, IsUtf8 s) ∧
      [a.unk17, a.unk18, a.unk19, a.unk20, a.unk21, a.unk22] = [0, 0, 0, 0, 0, 0] := by
    rw [List.map_map, map_same]
    refine forall_congr' fun a => forall_congr' fun _ => ?_
    cases a
    simp [HlpbData.AimConstraintData.ofAim, HlpbData.AimConstraintData.toAim, aimStrings, text_same, and_assoc, @eq_comm F32 0]
  have h2 : (os.map HlpbData.OrientConstraintData.ofOrient).map (·.toOrient) = os ↔ ∀ o ∈ os, ∀ s ∈ orientStrings o, IsUtf8 s := by
    rw [List.map_map, map_same]
    refine forall_congr' fun o => forall_congr' fun _ => ?_
    cases o
    simp [HlpbData.OrientConstraintData.ofOrient, HlpbData.OrientConstraintData.toOrient, orientStrings, text_same]
  have h3 : HlpbData.indexRange as.length ++ HlpbData.indexRange os.length = is ↔
      is.map (·.toNat) = List.range as.length ++ List.range os.length := by
    rw [← indexRange_nat ha, ← indexRange_nat ho, ← List.map_append]
    exact ⟨fun h => by rw [h], fun h => (map_toNat_inj h).symm⟩
  simp only [HlpbData.ofHlpb, HlpbData.toHlpb, Except.ok.injEq, Hlpb.V11.injEq, Hlpb.V11Data.mk.injEq, List.length_map, h1, h2, h3]
  constructor
  · rintro ⟨h1, h2, h3, h4⟩
    exact ⟨h1, h2, h3, by simp only [List.map_const']; exact h4.symm⟩
  · rintro ⟨h1, h2, h3, h4⟩
    exact ⟨h1, h2, h3, by simp only [List.map_const'] at h4; exact h4.symm⟩

/-- Saved helper bones are usual. -/
example : ∃ file m d bytes, readAs Hlpb file = .ok (.V11 m) ∧ HlpbData.read file = .ok d ∧ d.write = .ok bytes ∧
    m.aim_constraints.length < 2 ^ 32 ∧ m.orient_constraints.length < 2 ^ 32 ∧ UsualHlpb m := by
  obtain ⟨file, hf⟩ := isOk_iff.mp (by decide +kernel : isOk sampleHlpb.write = true)
  have hr := C01_format_round_trip _ _ (liftWrite_ok.mp hf)
  obtain ⟨bytes, hb⟩ := isOk_iff.mp (by decide +kernel : isOk (HlpbData.ofHlpb sampleHlpb.toHlpb).write = true)
  have hd : HlpbData.read file = .ok (HlpbData.ofHlpb sampleHlpb.toHlpb) := by rw [HlpbData.read, hr]; rfl
  refine ⟨file, _, _, bytes, hr, hd, hb, by decide, by decide, ?_⟩
  refine (C117_hlpb file _ hr _ hd bytes hb (by decide) (by decide)).mp ?_
  rw [C01_format_round_trip (α := Hlpb) _ _ (liftWrite_ok.mp hb)]
  exact congrArg Except.ok (by decide +kernel : (HlpbData.ofHlpb sampleHlpb.toHlpb).toHlpb = sampleHlpb.toHlpb)

/-- Not usual: the list of constraints is missing. -/
example : ¬ UsualHlpb ⟨[], [⟨ssbhText "a", ssbhText "b", ssbhText "b", ssbhText "c", ssbhText "d", 1, ⟨0, 0, 0⟩, ⟨0, 0, 0, 0⟩,
    ⟨0, 0, 0, 0⟩, ⟨0, 0, 0⟩, ⟨0, 0, 0⟩⟩], [], []⟩ := fun h => by simpa using h.indices

/-! ## Matl -/

/-- Sorted by type, and only values that saved files have. -/
structure UsualMaterial (e : Matl.MatlEntryV16) : Prop where
  label : IsUtf8 e.material_label
  shader : IsUtf8 e.shader_label
  sorted : savedKinds.flatMap (ofKind · e.attributes) = e.attributes
  params : ∀ a ∈ e.attributes, SavedParam a.param
  strings : ∀ a ∈ e.attributes, ∀ s, a.param = some (.String s) → IsUtf8 s

theorem saved_sorted (e : MatlData.MatlEntryData) :
    savedKinds.flatMap (ofKind · e.toV16.attributes) = e.toV16.attributes := by
  simp [savedKinds, ofKind, MatlData.MatlEntryData.toV16, List.filter_map, Function.comp_def, MatlData.attrV16, kindOf]

theorem keptParam_eq {p p' : Matl.ParamV16} (h : KeptParam p p') (hs : SavedParam (some p))
    (hu : ∀ s, p = .String s → IsUtf8 s) : p' = p := by
  cases h with
  | float | vector | uv | false => rfl
  | true h => rw [hs.resolve_left h]
  | string h => rw [keptString_eq h (hu _ rfl)]
  | @anisotropic s h1 h2 =>
    obtain ⟨a, b, -, -⟩ := hs
    cases s; cases a; cases b; rfl
  | @sampler s h =>
    obtain ⟨a, b, c, d⟩ := hs
    have hm : s.max_anisotropy = .One := by
      by_contra hn
      exact h.elim (fun h => h (d hn)) hn
    have ht := c hm
    cases s; cases a; cases b; cases hm; cases ht; rfl
  | @blend s h =>
    obtain ⟨a, b, c, d⟩ := hs
    have := a.resolve_left h
    cases s; cases this; cases b; cases c; cases d; rfl
  | @blendOff s h =>
    obtain ⟨-, b, c, d⟩ := hs
    cases s; cases h; cases b; cases c; cases d; rfl
  | rasterizer s =>
    obtain ⟨a, b, c⟩ := hs
    cases s; cases a; cases b; cases c; rfl

theorem kept_eq : ∀ {l l' : List Matl.AttributeV16}, List.Forall₂ KeptAttribute l l' → (∀ a ∈ l, SavedParam a.param) →
    (∀ a ∈ l, ∀ s, a.param = some (.String s) → IsUtf8 s) → l' = l
  | [], _, .nil, _, _ => rfl
  | a :: l, a' :: l', .cons ⟨hi, p, p', hp, hp', hk⟩ h, hs, hu => by
    have h1 := kept_eq h (fun a ha => hs a (.tail _ ha)) (fun a ha => hu a (.tail _ ha))
    have hsa := hs a (.head _)
    rw [hp] at hsa
    have h2 := keptParam_eq hk hsa (fun s e => hu a (.head _) s (by rw [hp, e]))
    cases a; cases a'
    simp_all

theorem material_same (e : Matl.MatlEntryV16) : (MatlData.MatlEntryData.ofV16 e).toV16 = e ↔ UsualMaterial e := by
  have hk := C116_entry e
  constructor
  · intro h
    have hs := saved_sorted (.ofV16 e)
    have hp := (savedMaterial (.ofV16 e)).params
    rw [h] at hk hs hp
    refine ⟨text_same.mp (congrArg (·.material_label) h), text_same.mp (congrArg (·.shader_label) h), hs, hp, ?_⟩
    rw [KeptAttributes, hs] at hk
    intro a ha s hps
    obtain ⟨-, p, p', h1, h2, hpp⟩ := List.forall₂_same.mp hk a ha
    rw [hps] at h1 h2
    cases h1; cases h2
    cases hpp with
    | string h => exact keptString_self.mp h
  · rintro ⟨h1, h2, h3, h4, h5⟩
    rw [KeptAttributes, h3] at hk
    have := kept_eq hk h4 h5
    have l1 := text_same.mpr h1
    have l2 := text_same.mpr h2
    generalize hr : (MatlData.MatlEntryData.ofV16 e).toV16 = r at this
    have r1 : r.material_label = e.material_label := by rw [← hr]; exact l1
    have r2 : r.shader_label = e.shader_label := by rw [← hr]; exact l2
    cases r; cases e
    simp_all

theorem C117_matl (file : Bytes) (m : Matl.V16Data) (hm : readAs Matl file = .ok (.V16 m)) (d : MatlData)
    (hr : MatlData.read file = .ok d) (bytes : Bytes) (hw : d.write = .ok bytes) :
    readAs Matl bytes = .ok (.V16 m) ↔ ∀ e ∈ m.entries, UsualMaterial e := by
  rw [MatlData.read, hm] at hr
  cases hr
  have : readAs Matl bytes = .ok (.V16 ⟨(m.entries.map MatlData.MatlEntryData.ofV16).map (·.toV16)⟩) :=
    C01_format_round_trip (α := Matl) _ bytes (liftWrite_ok.mp hw)
  rw [this, List.map_map]
  obtain ⟨es⟩ := m
  simp only [Except.ok.injEq, Matl.V16.injEq, Matl.V16Data.mk.injEq, map_same]
  exact forall_congr' fun e => forall_congr' fun _ => material_same e

/-- The file with this material is changed, the one saved from it is not. -/
example : ∀ e ∈ oddMatl.entries, ¬ UsualMaterial e ∧ UsualMaterial (MatlData.MatlEntryData.ofV16 e).toV16 := by
  intro e he
  constructor
  · rw [← material_same]; revert e; decide +kernel
  · rw [← material_same]; revert e; decide +kernel

/-! ## Skel -/

/-- Lists of the same length, bones with their own position, and matrices as they are calculated from the transforms. -/
structure UsualSkel (O : MatOps Matrix4x4) (s : Skel.V10Data) (d : SkelData) : Prop where
  bones : ∀ i b, s.bone_entries[i]? = some b →
    IsUtf8 b.name ∧ b.index = UInt16.ofNat i ∧ -1 ≤ b.parent_index.toInt ∧ b.flags.unk1 = 1
  length : s.transforms.length = s.bone_entries.length
  world : List.Forall₂ (fun b m => SkelData.worldTransform O d b = some (.ok m)) d.bones s.world_transforms
  invWorld : s.inv_world_transforms = s.world_transforms.map O.inverse
  inv : s.inv_transforms = s.transforms.map O.inverse

theorem skel_collect {g : α → Option (Except ε β)} : ∀ {l : List α} {w : List β},
    SkelData.collect (l.map g) = some (.ok w) ↔ List.Forall₂ (fun a b => g a = some (.ok b)) l w
  | [], w => by
    simp only [List.map_nil, SkelData.collect, Option.some.injEq, Except.ok.injEq, List.forall₂_nil_left_iff]
    exact eq_comm
  | a :: l, w => by
    rw [List.map_cons]
    have ih := fun w => skel_collect (g := g) (l := l) (w := w)
    cases w with
    | nil =>
      simp only [List.forall₂_nil_right_iff, reduceCtorEq, iff_false]
      unfold SkelData.collect
      cases g a with
      | none => simp
      | some x => cases x with
        | error => simp
        | ok => dsimp only; split <;> simp
    | cons b w =>
      rw [List.forall₂_cons, ← ih w]
      cases h : g a with
      | none => simp [SkelData.collect]
      | some x => cases x with
        | error => simp [SkelData.collect]
        | ok y =>
          simp only [SkelData.collect]
          split <;> simp_all

theorem parent_same (p : Int16) : (match (if p.toInt < 0 then none else some p.toInt.toNat : Option Nat) with
    | some index => Int16.ofNat index
    | none => -1) = p ↔ -1 ≤ p.toInt := by
  by_cases h : p.toInt < 0
  · simp only [h, if_true]
    constructor
    · rintro rfl; decide
    · intro h'
      have : p.toInt = -1 := by omega
      exact Int16.toInt_inj.mp (by rw [this]; rfl)
  · simp only [h, if_false]
    refine ⟨fun _ => by omega, fun _ => ?_⟩
    rw [← Int16.ofInt_eq_ofNat, Int.toNat_of_nonneg (by omega), Int16.ofInt_toInt]

theorem C117_skel (O : MatOps Matrix4x4) (file : Bytes) (s : Skel.V10Data) (hs : readAs Skel file = .ok (.V10 s)) (d : SkelData)
    (hr : SkelData.read file = .ok d) (bytes : Bytes) (hw : d.write O = .ok bytes) :
    readAs Skel bytes = .ok (.V10 s) ↔ UsualSkel O s d := by
  rw [SkelData.read, hs] at hr
  have hd : d = SkelData.ofSkel (.V10 s) := by cases hr; rfl
  have hb : d.bones = (s.bone_entries.zip s.transforms).map fun (b, t) => SkelData.createBoneData b t := by rw [hd]; rfl
  clear hr hd
  unfold SkelData.write SkelData.toSkel at hw
  cases hc : SkelData.collect (d.bones.map (SkelData.worldTransform O d)) with
  | none => rw [hc] at hw; cases hw
  | some x => cases x with
    | error e => rw [hc] at hw; cases hw
    | ok world =>
      rw [hc] at hw
      rw [C01_format_round_trip (α := Skel) _ bytes (liftWrite_ok.mp hw)]
      clear hw
      have hwd := skel_collect.mp hc
      obtain ⟨es, ws, iws, ts, its⟩ := s
      simp only [Except.ok.injEq, Skel.V10.injEq, Skel.V10Data.mk.injEq] at hb ⊢
      have ht : d.bones.map (·.transform) = ts ↔ ts.length ≤ es.length := by
        have : d.bones.map (·.transform) = (es.zip ts).map Prod.snd := by
          rw [hb, List.map_map]; rfl
        rw [this]
        constructor
        · intro h
          have := congrArg List.length h
          simp at this
          omega
        · intro h; exact List.map_snd_zip h
      have hget : ts.length = es.length → ∀ (i : Nat) (b : Skel.SkelBoneEntry), es[i]? = some b → ∃ t, d.bones[i]? = some (SkelData.createBoneData b t) := by
        intro hl i b hi
        have hlt : i < es.length := (List.getElem?_eq_some_iff.mp hi).1
        refine ⟨ts[i]'(by omega), ?_⟩
        have hz : (es.zip ts)[i]? = some (b, ts[i]'(by omega)) :=
          List.getElem?_zip_eq_some.mpr ⟨hi, List.getElem?_eq_getElem (by omega)⟩
        rw [hb, List.getElem?_map, hz]
        rfl
      have hlen : d.bones.length = min es.length ts.length := by rw [hb]; simp
      constructor
      · rintro ⟨h1, rfl, h3, h4, h5⟩
        have hle := ht.mp h4
        have hl : ts.length = es.length := by
          have := congrArg List.length h1
          simp at this
          omega
        refine ⟨?_, hl, hwd, h3.symm, ?_⟩
        · intro i b hi
          obtain ⟨t, hbi⟩ := hget hl i b hi
          have := congrArg (·[i]?) h1
          simp only [List.getElem?_map, List.getElem?_zipIdx, hbi, hi, Option.map_some, Option.some.injEq, Nat.zero_add] at this
          obtain ⟨bn, bi, bp, bu, bt⟩ := b
          simp only [SkelData.createBoneData, Skel.SkelBoneEntry.mk.injEq, Skel.SkelEntryFlags.mk.injEq] at this
          obtain ⟨e1, e2, e3, e4, -⟩ := this
          exact ⟨text_same.mp e1, e2.symm, (parent_same bp).mp e3, e4.symm⟩
        · rw [← h5, ← h4, List.map_map]; rfl
      · rintro ⟨h1, hl, h3, h4, h5⟩
        simp only at h1 hl h3 h4 h5
        have hww : world = ws := by
          have := hc.symm.trans (skel_collect.mpr h3)
          simpa using this
        have h4' := ht.mpr (by omega)
        refine ⟨?_, hww, by rw [hww, h4], h4', by rw [h5, ← h4', List.map_map]; rfl⟩
        apply List.ext_getElem?
        intro i
        cases hi : es[i]? with
        | none =>
          have : d.bones[i]? = none := by
            rw [List.getElem?_eq_none_iff] at hi ⊢
            omega
          simp [List.getElem?_zipIdx, this]
        | some b =>
          obtain ⟨t, hbi⟩ := hget hl i b hi
          simp only [List.getElem?_map, List.getElem?_zipIdx, hbi, Option.map_some, Option.some.injEq, Nat.zero_add]
          obtain ⟨e1, e2, e3, e4⟩ := h1 i b hi
          obtain ⟨bn, bi, bp, bu, bt⟩ := b
          simp only [SkelData.createBoneData, Skel.SkelBoneEntry.mk.injEq, Skel.SkelEntryFlags.mk.injEq]
          exact ⟨text_same.mpr e1, e2.symm, (parent_same bp).mpr e3, e4.symm, trivial⟩

/-- Saved skeletons are usual. -/
example : ∃ file s d bytes, readAs Skel file = .ok (.V10 s) ∧ SkelData.read file = .ok d ∧ d.write countOps = .ok bytes ∧
    s.bone_entries ≠ [] ∧ UsualSkel countOps s d := by
  obtain ⟨file, hf⟩ := isOk_iff.mp (by decide +kernel : isOk (chainSkel.write countOps) = true)
  unfold SkelData.write at hf
  cases hs : chainSkel.toSkel countOps with
  | none => rw [hs] at hf; cases hf
  | some x => cases x with
    | error => rw [hs] at hf; cases hf
    | ok v =>
      rw [hs] at hf
      have hr := C01_format_round_trip _ _ (liftWrite_ok.mp hf)
      have hd : SkelData.read file = .ok (SkelData.ofSkel v) := by rw [SkelData.read, hr]; rfl
      have he : SkelData.ofSkel v = chainSkel := by
        have : (match chainSkel.toSkel countOps with
          | some (.ok v) => decide (SkelData.ofSkel v = chainSkel)
          | _ => false) = true := by decide +kernel
        rw [hs] at this
        simpa using this
      have hw : (SkelData.ofSkel v).write countOps = .ok file := by rw [he, SkelData.write, hs]; exact hf
      obtain ⟨s⟩ := v
      refine ⟨file, s, _, file, hr, hd, hw, ?_, (C117_skel countOps file s hr _ hd file hw).mp hr⟩
      intro h0
      have hb := congrArg SkelData.bones he
      simp [SkelData.ofSkel, h0, chainSkel] at hb

end Verif.Props
