import Verif.Props.Independent
/-!
# Mesh objects of any mesh

C112: what is opened for a mesh object depends only on the data it refers to, wherever this is in the buffers.
-/

namespace Verif
namespace Props
open MeshData

/-! ## Reading the same bytes at another place -/

/-- A reader that uses a fixed number of bytes, wherever they are. -/
structure Local (c : Codec α) (n : Nat) : Prop where
  next : ∀ b p v q, c.read b p = .ok (v, q) → q = p + n
  same : ∀ b b' p p' v q, b.drop p <+: b'.drop p' → c.read b p = .ok (v, q) → c.read b' p' = .ok (v, p' + n)

theorem readBytes_local {n : Nat} {b b' : Bytes} {p p' : Nat} {v : Bytes} {q : Nat} (hp : b.drop p <+: b'.drop p')
    (h : readBytes n b p = .ok (v, q)) : q = p + n ∧ readBytes n b' p' = .ok (v, p' + n) := by
  simp only [readBytes] at h ⊢
  split at h
  · rename_i hl
    cases h
    have h1 := hp.length_le
    simp only [List.length_drop] at h1
    refine ⟨rfl, ?_⟩
    rw [if_pos (by omega)]
    obtain ⟨t, ht⟩ := hp
    rw [← ht, List.take_append_of_le_length (by rw [List.length_drop]; omega)]
  · cases h

theorem prim_local {n : Nat} {f : α → Nat} {g : Nat → Option α} : Local (prim n f g) n := by
  have key : ∀ b b' p p' v q, b.drop p <+: b'.drop p' → (prim n f g).read b p = .ok (v, q) →
      q = p + n ∧ (prim n f g).read b' p' = .ok (v, p' + n) := by
    intro b b' p p' v q hp h
    simp only [prim, readLe] at h ⊢
    cases hr : readBytes n b p with
    | error e => simp [hr] at h
    | ok x =>
      obtain ⟨x, y⟩ := x
      obtain ⟨hq, hr'⟩ := readBytes_local hp hr
      simp only [hr, hr'] at h ⊢
      cases hg : g (fromLe x) with
      | none => simp [hg] at h
      | some a =>
        simp only [hg, Except.ok.injEq, Prod.mk.injEq] at h ⊢
        exact ⟨h.2 ▸ hq, h.1, trivial⟩
  exact ⟨fun b p v q h => (key b b p p v q (List.prefix_refl _) h).1, fun b b' p p' v q hp h => (key b b' p p' v q hp h).2⟩

theorem drop_prefix {b b' : Bytes} {p p' : Nat} (n : Nat) (h : b.drop p <+: b'.drop p') : b.drop (p + n) <+: b'.drop (p' + n) := by
  rw [← List.drop_drop, ← List.drop_drop]
  exact h.drop n

theorem readElems_local {c : Codec α} {n : Nat} (hc : Local c n) {b b' : Bytes} : ∀ {k p p' : Nat} {vs : List α} {q : Nat},
    b.drop p <+: b'.drop p' → readElems c k b p = .ok (vs, q) → ∃ q', readElems c k b' p' = .ok (vs, q')
  | 0, p, p', vs, q, _, h => by
    cases h
    exact ⟨p', rfl⟩
  | k + 1, p, p', vs, q, hp, h => by
    simp only [readElems] at h
    split at h
    · cases h
    rename_i v p1 hv
    split at h
    · cases h
    rename_i ws p2 hw
    cases h
    have h1 := hc.next _ _ _ _ hv
    subst h1
    obtain ⟨q', hq⟩ := readElems_local hc (drop_prefix n hp) hw
    exact ⟨q', by simp only [readElems, hc.same _ _ _ _ _ _ hp hv, hq]⟩

theorem readVectors_local {c : Codec α} {s : Nat} (hc : Local c s) {toF32 : α → F32} {n : Nat} {b b' : Bytes} {off off' add stride : Nat}
    (hp : b.drop off <+: b'.drop off') : ∀ {count i : Nat} {vs : List (Vector F32 n)},
    VectorData.readVectors c toF32 n b (add + off) stride i count = .ok vs →
      VectorData.readVectors c toF32 n b' (add + off') stride i count = .ok vs
  | 0, _, _, h => h
  | count + 1, i, vs, h => by
    simp only [VectorData.readVectors, arrayN] at h ⊢
    have hq := drop_prefix (add + i * stride) hp
    rw [show off + (add + i * stride) = add + off + i * stride by omega,
      show off' + (add + i * stride) = add + off' + i * stride by omega] at hq
    cases hr : readElems c n b (add + off + i * stride) with
    | error e => simp [hr] at h
    | ok x =>
      obtain ⟨x, y⟩ := x
      obtain ⟨y', hr'⟩ := readElems_local hc hq hr
      simp only [hr, hr'] at h ⊢
      by_cases hl : x.length = n
      · simp only [hl, dif_pos] at h ⊢
        cases hv : VectorData.readVectors c toF32 n b (add + off) stride (i + 1) count with
        | error e => simp [hv] at h
        | ok ws =>
          simp only [hv] at h
          simp only [readVectors_local hc hp hv]
          exact h
      · simp [hl] at h

theorem readVectorData_local {c : Codec α} {s : Nat} (hc : Local c s) {toF32 : α → F32} {n : Nat} {b b' : Bytes}
    {off off' add stride count : Nat} {f : List (Vector F32 n) → VectorData} (hp : b.drop off <+: b'.drop off') {v : VectorData}
    (h : (VectorData.readVectorData c toF32 n b count (add + off) stride).map f = .ok v) :
    (VectorData.readVectorData c toF32 n b' count (add + off') stride).map f = .ok v := by
  cases hr : VectorData.readVectorData c toF32 n b count (add + off) stride with
  | error e => rw [hr] at h; cases h
  | ok vs =>
    rw [hr] at h
    have : VectorData.readVectorData c toF32 n b' count (add + off') stride = .ok vs := by
      simp only [VectorData.readVectorData] at hr ⊢
      split at hr
      · cases hr
      · rename_i hz
        rw [if_neg hz]
        exact readVectors_local hc hp hr
    rw [this]
    exact h

theorem f32_local : Local f32 4 := prim_local (n := 4) (f := UInt32.toNat) (g := fun x => some (UInt32.ofNat x))

theorem vectorData_local {F : FloatConv} {b b' : Bytes} {off off' add stride count : Nat} (hp : b.drop off <+: b'.drop off')
    {v : VectorData} : ∀ {t : VectorData.DataType}, VectorData.read F b count (add + off) stride t = .ok v →
      VectorData.read F b' count (add + off') stride t = .ok v
  | .Float2, h => readVectorData_local (c := f32) f32_local hp h
  | .Float3, h => readVectorData_local (c := f32) f32_local hp h
  | .Float4, h => readVectorData_local (c := f32) f32_local hp h
  | .HalfFloat2, h => readVectorData_local (c := u16) prim_local hp h
  | .HalfFloat4, h => readVectorData_local (c := u16) prim_local hp h
  | .Byte4, h => readVectorData_local (c := u8) prim_local hp h

theorem collect_get {f : α → Except ε β} : ∀ {xs : List α} {ys : List β}, MeshData.collect f xs = .ok ys →
    ∀ (i : Nat) (x : α), xs[i]? = some x → ∃ y, f x = .ok y ∧ ys[i]? = some y
  | [], _, _, i, x, hx => by simp at hx
  | x :: xs, ys, h, i, u, hu => by
    simp only [MeshData.collect] at h
    split at h
    · cases h
    rename_i y hy
    split at h
    · cases h
    rename_i zs hz
    cases h
    cases i with
    | zero =>
      simp only [List.getElem?_cons_zero, Option.some.injEq] at hu
      subst hu
      exact ⟨y, hy, rfl⟩
    | succ i => simpa only [List.getElem?_cons_succ] using collect_get hz i u (by simpa using hu)

theorem collect_ok_iff {f : α → Except ε β} : ∀ {xs : List α},
    (∃ ys, MeshData.collect f xs = .ok ys) ↔ ∀ x ∈ xs, ∃ y, f x = .ok y
  | [] => ⟨fun _ _ hx => (nomatch hx), fun _ => ⟨[], rfl⟩⟩
  | x :: xs => by
    constructor
    · rintro ⟨ys, h⟩ u hu
      obtain ⟨i, hi⟩ := List.mem_iff_getElem?.mp hu
      obtain ⟨y, hy, _⟩ := collect_get h i u hi
      exact ⟨y, hy⟩
    · intro h
      obtain ⟨y, hy⟩ := h x List.mem_cons_self
      obtain ⟨zs, hz⟩ := collect_ok_iff.mpr fun u hu => h u (List.mem_cons_of_mem _ hu)
      exact ⟨y :: zs, by simp only [MeshData.collect, hy, hz]⟩

theorem collect_keeps {f g : α → Except ε β} (hfg : ∀ x y, f x = .ok y → g x = .ok y) : ∀ {xs : List α} {ys : List β},
    MeshData.collect f xs = .ok ys → MeshData.collect g xs = .ok ys
  | [], _, h => h
  | x :: xs, ys, h => by
    simp only [MeshData.collect] at h ⊢
    split at h
    · cases h
    rename_i y hy
    split at h
    · cases h
    rename_i zs hz
    simp only [hfg x y hy, collect_keeps hfg hz]
    exact h

/-! ## The claim -/

/-- Where the data of the object starts in the vertex buffers. -/
def startOf (o : Mesh.MeshObject A) : Nat → Option Nat
  | 0 => some o.vertex_buffer0_offset.toNat
  | 1 => some o.vertex_buffer1_offset.toNat
  | 2 => some o.vertex_buffer2_offset.toNat
  | 3 => some o.vertex_buffer3_offset.toNat
  | _ => none

/-- The weights are for this object: same text of the name and same subindex. -/
def belongs (o : Mesh.MeshObject A) (g : Mesh.RiggingGroup Wt) : Bool :=
  ssbhToStr g.mesh_object_name = some (toStringLossy o.name) ∧ g.mesh_object_subindex = o.subindex

/-- Objects that differ only in where their data is (and in fields that are not opened). -/
structure SameFields (o o' : Mesh.MeshObject A) : Prop where
  name : toStringLossy o.name = toStringLossy o'.name
  subindex : o.subindex = o'.subindex
  parent : toStringLossy o.parent_bone_name = toStringLossy o'.parent_bone_name
  vertices : o.vertex_count = o'.vertex_count
  indices : o.vertex_index_count = o'.vertex_index_count
  stride0 : o.stride0 = o'.stride0
  stride1 : o.stride1 = o'.stride1
  stride2 : o.stride2 = o'.stride2
  stride3 : o.stride3 = o'.stride3
  type : o.draw_element_type = o'.draw_element_type
  bias : o.sort_bias = o'.sort_bias
  depth : o.depth_flags = o'.depth_flags
  attributes : o.attributes = o'.attributes

/-- The data of `o` in `m` is also, from where the data of `o'` starts, in the buffers of `m'`; more may follow. The weights are
the same. -/
structure DataAt (m m' : Mesh.MeshInner A Wt) (o o' : Mesh.MeshObject A) : Prop where
  indices : m.index_buffer.drop o.index_buffer_offset.toNat <+: m'.index_buffer.drop o'.index_buffer_offset.toNat
  vertices : ∀ i b p p', m.vertex_buffers[i]? = some b → startOf o i = some p → startOf o' i = some p' →
    ∃ b', m'.vertex_buffers[i]? = some b' ∧ b.drop p <+: b'.drop p'
  weights : m.rigging_buffers.filter (belongs o) = m'.rigging_buffers.filter (belongs o')

theorem readVertexIndices_same {m m' : Mesh.MeshInner A Wt} {o o' : Mesh.MeshObject A} (ho : SameFields o o') (hd : DataAt m m' o o')
    {x : List UInt32} (h : readVertexIndices m.index_buffer o = .ok x) : readVertexIndices m'.index_buffer o' = .ok x := by
  simp only [readVertexIndices, readData, ← ho.type, ← ho.indices] at h ⊢
  split at h
  · rename_i ht
    rw [if_pos ht]
    split at h
    · cases h
    rename_i vs q hr
    obtain ⟨q', hr'⟩ := readElems_local (c := u16) prim_local hd.indices hr
    rw [hr']
    exact h
  · rename_i ht
    rw [if_neg ht]
    split at h
    · cases h
    rename_i vs q hr
    obtain ⟨q', hr'⟩ := readElems_local (c := u32) prim_local hd.indices hr
    rw [hr']
    exact h

theorem readAttributeData_same {F : FloatConv} {m m' : Mesh.MeshInner A Wt} {o o' : Mesh.MeshObject A} (ho : SameFields o o')
    (hd : DataAt m m' o o') {a : MeshAttribute} {x : VectorData} (h : readAttributeData F m.vertex_buffers o a = .ok x) :
    readAttributeData F m'.vertex_buffers o' a = .ok x := by
  have h0 := h
  simp only [readAttributeData] at h0
  split at h0
  · cases h0
  rename_i b hb
  have key : ∀ (p p' : Nat) (s s' : UInt32), startOf o a.index = some p → startOf o' a.index = some p' → s = s' →
      calculateOffsetStride a o = .ok (a.offset + p, s.toNat) → calculateOffsetStride a o' = .ok (a.offset + p', s'.toNat) →
      readAttributeData F m'.vertex_buffers o' a = .ok x := by
    intro p p' s s' hp hp' hs hc hc'
    obtain ⟨b', hb', hpre⟩ := hd.vertices _ b p p' hb hp hp'
    simp only [hc] at h0
    simp only [readAttributeData, hb', hc', ← ho.vertices, ← hs]
    exact vectorData_local hpre h0
  obtain ⟨an, ai, ao, at'⟩ := a
  match ai with
  | 0 => exact key _ _ _ _ rfl rfl ho.stride0 rfl rfl
  | 1 => exact key _ _ _ _ rfl rfl ho.stride1 rfl rfl
  | 2 => exact key _ _ _ _ rfl rfl ho.stride2 rfl rfl
  | 3 => exact key _ _ _ _ rfl rfl ho.stride3 rfl rfl
  | i + 4 => simp [calculateOffsetStride] at h0

theorem readAttributes_same [Attribute A] {F : FloatConv} {m m' : Mesh.MeshInner A Wt} {o o' : Mesh.MeshObject A} (ho : SameFields o o')
    (hd : DataAt m m' o o') {u : AttributeUsage} {x : List AttributeData} (h : readAttributes F m.vertex_buffers o u = .ok x) :
    readAttributes F m'.vertex_buffers o' u = .ok x := by
  simp only [readAttributes, getAttributes, ← ho.attributes] at h ⊢
  refine collect_keeps (fun a y hy => ?_) h
  cases hr : readAttributeData F m.vertex_buffers o a with
  | error e => rw [hr] at hy; cases hy
  | ok d =>
    rw [hr] at hy
    rw [readAttributeData_same ho hd hr]
    exact hy

theorem bind_ok {x : Except ε α} {f : α → Except ε β} {z : β} (h : (x >>= f) = .ok z) : ∃ y, x = .ok y ∧ f y = .ok z := by
  cases x with
  | error e => cases h
  | ok y => exact ⟨y, rfl, h⟩

theorem readMeshObject_same [Attribute A] {Wt : Type} [Weight Wt] {F : FloatConv} {m m' : Mesh.MeshInner A Wt}
    {o o' : Mesh.MeshObject A} (ho : SameFields o o') (hd : DataAt m m' o o') {x : MeshObjectData}
    (h : readMeshObject F m o = .ok x) : readMeshObject F m' o' = .ok x := by
  unfold readMeshObject at h ⊢
  obtain ⟨is, h0, h⟩ := bind_ok h
  obtain ⟨a1, h1, h⟩ := bind_ok h
  obtain ⟨a2, h2, h⟩ := bind_ok h
  obtain ⟨a3, h3, h⟩ := bind_ok h
  obtain ⟨a4, h4, h⟩ := bind_ok h
  obtain ⟨a5, h5, h⟩ := bind_ok h
  obtain ⟨a6, h6, h⟩ := bind_ok h
  obtain ⟨w, h7, h⟩ := bind_ok h
  have h7' : readRiggingData m'.rigging_buffers (toStringLossy o'.name) o'.subindex = .ok w := by
    have hw := hd.weights
    simp only [readRiggingData] at h7 ⊢
    unfold belongs at hw
    rw [← hw]
    exact h7
  simp only []
  rw [readVertexIndices_same ho hd h0, readAttributes_same ho hd h1, readAttributes_same ho hd h2, readAttributes_same ho hd h3,
    readAttributes_same ho hd h4, readAttributes_same ho hd h5, readAttributes_same ho hd h6, h7']
  simp only [Bind.bind, Except.bind]
  rw [← ho.name, ← ho.subindex, ← ho.parent, ← ho.bias, ← ho.depth]
  exact h

/-- Object number `i` of the first mesh and number `i'` of the second one, of the same version, are the same, and so is their data, which
may be at other places. -/
inductive MovedObject : Mesh → Mesh → Nat → Nat → Prop
  | V8 {m m' i i' o o'} : m.objects[i]? = some o → m'.objects[i']? = some o' → SameFields o o' → DataAt m m' o o' →
    MovedObject (.V8 m) (.V8 m') i i'
  | V9 {m m' i i' o o'} : m.objects[i]? = some o → m'.objects[i']? = some o' → SameFields o o' → DataAt m m' o o' →
    MovedObject (.V9 m) (.V9 m') i i'
  | V10 {m m' i i' o o'} : m.objects[i]? = some o → m'.objects[i']? = some o' → SameFields o o' → DataAt m m' o o' →
    MovedObject (.V10 m) (.V10 m') i i'

theorem opened_map {x : Except ε α} {f : α → β} {z : β} (h : x.map f = .ok z) : ∃ y, x = .ok y ∧ f y = z := by
  cases x with
  | error e => cases h
  | ok y => cases h; exact ⟨y, rfl, rfl⟩

theorem moved_inner [Attribute A] {Wt : Type} [Weight Wt] {F : FloatConv} {m m' : Mesh.MeshInner A Wt} {i i' : Nat}
    {o o' : Mesh.MeshObject A} {os os' : List MeshObjectData} (hi : m.objects[i]? = some o) (hi' : m'.objects[i']? = some o')
    (ho : SameFields o o') (hd : DataAt m m' o o') (h : readMeshObjectsInner F m = .ok os)
    (h' : readMeshObjectsInner F m' = .ok os') : (os[i]?).isSome ∧ os[i]? = os'[i']? := by
  obtain ⟨x, hx, e⟩ := collect_get h i o hi
  obtain ⟨y, hy, e'⟩ := collect_get h' i' o' hi'
  rw [readMeshObject_same ho hd hx] at hy
  cases hy
  rw [e, e']
  exact ⟨rfl, rfl⟩

/-- C112: what is opened for an object of any mesh, also of another program, depends only on its fields and the data it refers to: the same object
in another mesh, with the same data at another place of the buffers, is opened as the same object. -/
theorem C112_object (F : FloatConv) (a b : Mesh) (d e : MeshData) (i i' : Nat) (h : MovedObject a b i i') (ha : ofMesh F a = .ok d)
    (hb : ofMesh F b = .ok e) : (d.objects[i]?).isSome ∧ d.objects[i]? = e.objects[i']? := by
  cases h with
  | V8 h1 h2 h3 h4 =>
    obtain ⟨_, e1, rfl⟩ := opened_map ha
    obtain ⟨_, e2, rfl⟩ := opened_map hb
    exact moved_inner h1 h2 h3 h4 e1 e2
  | V9 h1 h2 h3 h4 =>
    obtain ⟨_, e1, rfl⟩ := opened_map ha
    obtain ⟨_, e2, rfl⟩ := opened_map hb
    exact moved_inner h1 h2 h3 h4 e1 e2
  | V10 h1 h2 h3 h4 =>
    obtain ⟨_, e1, rfl⟩ := opened_map ha
    obtain ⟨_, e2, rfl⟩ := opened_map hb
    exact moved_inner h1 h2 h3 h4 e1 e2

/-- Number of objects. -/
def objectCount : Mesh → Nat
  | .V8 m => m.objects.length
  | .V9 m => m.objects.length
  | .V10 m => m.objects.length

theorem inner_opens [Attribute A] {Wt : Type} [Weight Wt] {F : FloatConv} {m' : Mesh.MeshInner A Wt}
    (h : ∀ (i' : Nat) (o' : Mesh.MeshObject A), m'.objects[i']? = some o' → ∃ (m : Mesh.MeshInner A Wt) (i : Nat) (o : Mesh.MeshObject A) (os : List MeshObjectData),
      m.objects[i]? = some o ∧ SameFields o o' ∧ DataAt m m' o o' ∧ readMeshObjectsInner F m = .ok os) :
    ∃ os, readMeshObjectsInner F m' = .ok os := by
  refine collect_ok_iff.mpr fun o' ho' => ?_
  obtain ⟨i', hi'⟩ := List.mem_iff_getElem?.mp ho'
  obtain ⟨m, i, o, os, hi, hs, hd, hr⟩ := h i' o' hi'
  obtain ⟨x, hx, _⟩ := collect_get hr i o hi
  exact ⟨x, readMeshObject_same hs hd hx⟩

/-- C112: a mesh that is put together from objects of meshes that can be opened can be opened. -/
theorem C112_opens (F : FloatConv) (b : Mesh)
    (h : ∀ i' < objectCount b, ∃ a i d, MovedObject a b i i' ∧ ofMesh F a = .ok d) : ∃ e, ofMesh F b = .ok e := by
  cases b with
  | V8 m' =>
    obtain ⟨os, hos⟩ := inner_opens (F := F) (m' := m') fun i' o' hi' => by
      obtain ⟨a, i, d, hm, hd⟩ := h i' (List.getElem?_eq_some_iff.mp hi').1
      cases hm with
      | V8 h1 h2 h3 h4 =>
        rw [hi'] at h2
        cases h2
        obtain ⟨os, e, -⟩ := opened_map hd
        exact ⟨_, i, _, os, h1, h3, h4, e⟩
    exact ⟨_, by simp only [ofMesh, hos]; rfl⟩
  | V9 m' =>
    obtain ⟨os, hos⟩ := inner_opens (F := F) (m' := m') fun i' o' hi' => by
      obtain ⟨a, i, d, hm, hd⟩ := h i' (List.getElem?_eq_some_iff.mp hi').1
      cases hm with
      | V9 h1 h2 h3 h4 =>
        rw [hi'] at h2
        cases h2
        obtain ⟨os, e, -⟩ := opened_map hd
        exact ⟨_, i, _, os, h1, h3, h4, e⟩
    exact ⟨_, by simp only [ofMesh, hos]; rfl⟩
  | V10 m' =>
    obtain ⟨os, hos⟩ := inner_opens (F := F) (m' := m') fun i' o' hi' => by
      obtain ⟨a, i, d, hm, hd⟩ := h i' (List.getElem?_eq_some_iff.mp hi').1
      cases hm with
      | V10 h1 h2 h3 h4 =>
        rw [hi'] at h2
        cases h2
        obtain ⟨os, e, -⟩ := opened_map hd
        exact ⟨_, i, _, os, h1, h3, h4, e⟩
    exact ⟨_, by simp only [ofMesh, hos]; rfl⟩

/-! ## Example -/

/-- An object with one vertex of version 1.8 whose data starts at `v` and `i`. -/
def oneVertex (v i : UInt32) : Mesh.MeshObject Mesh.AttributeV8 where
  name := ssbhText "a"
  subindex := 2
  parent_bone_name := none
  vertex_count := 1
  vertex_index_count := 3
  unk2 := 3
  vertex_buffer0_offset := v
  vertex_buffer1_offset := 0
  vertex_buffer2_offset := 0
  vertex_buffer3_offset := 0
  stride0 := 16
  stride1 := 0
  stride2 := 0
  stride3 := 0
  index_buffer_offset := i
  unk8 := 4
  draw_element_type := .UnsignedShort
  use_vertex_skinning := 0
  sort_bias := 1
  depth_flags := ⟨0, 1⟩
  bounding_info := exampleBounds []
  attributes := [⟨.Position, .Float3, 0, 4, 0⟩]

/-- A mesh of such objects with the same weights. -/
def vertexMesh (objects : List (Mesh.MeshObject Mesh.AttributeV8)) (vertices indices : Bytes) :
    Mesh.MeshInner Mesh.AttributeV8 (List Mesh.VertexWeightV8) where
  model_name := none
  bounding_info := exampleBounds []
  unk1 := 0
  objects := objects
  buffer_sizes := []
  polygon_index_size := 0
  vertex_buffers := [vertices]
  index_buffer := indices
  rigging_buffers := [⟨ssbhText "a", 2, ⟨1, 1⟩, [⟨ssbhText "Hip", [⟨0, 0x3f800000⟩]⟩]⟩]

def vertexBytes : Bytes := [9, 9, 9, 9, 1, 0, 0, 0, 2, 0, 0, 0, 3, 0, 0, 0]

/-- The object is moved by three bytes (vertices) and two bytes (indices); other bytes follow. -/
example : MovedObject (.V8 (vertexMesh [oneVertex 0 0] vertexBytes [0, 0, 0, 0, 0, 0]))
    (.V8 (vertexMesh [oneVertex 0 0, oneVertex 3 2] ([7, 7, 7] ++ vertexBytes ++ [5]) [1, 1, 0, 0, 0, 0, 0, 0, 8])) 0 1 := by
  refine .V8 (o := oneVertex 0 0) (o' := oneVertex 3 2) rfl rfl ?_ ⟨by decide, ?_, by decide +kernel⟩
  · constructor <;> rfl
  · intro i b p p' hb hp hp'
    match i with
    | 0 =>
      cases hb
      cases hp
      cases hp'
      exact ⟨_, rfl, by decide⟩
    | i + 1 => simp [vertexMesh] at hb

example : ∃ d e, ofMesh exampleConv (.V8 (vertexMesh [oneVertex 0 0] vertexBytes [0, 0, 0, 0, 0, 0])) = .ok d ∧
    ofMesh exampleConv (.V8 (vertexMesh [oneVertex 0 0, oneVertex 3 2] ([7, 7, 7] ++ vertexBytes ++ [5])
      [1, 1, 0, 0, 0, 0, 0, 0, 8])) = .ok e ∧ d.objects[0]? = e.objects[1]? ∧
    (d.objects[0]?).map (·.positions.map (·.data)) = some [.Vector3 [#v[1, 2, 3]]] ∧
    (d.objects[0]?).map (·.bone_influences) = some [⟨"Hip", [⟨0, 0x3f800000⟩]⟩] :=
  ⟨_, _, rfl, rfl, by decide +kernel, by decide +kernel, by decide +kernel⟩

end Props
end Verif
