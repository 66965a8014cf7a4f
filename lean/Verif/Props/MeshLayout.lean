import Verif.Props.Precision
import Verif.Props.Shown
/-!
# C57: where the data of a mesh file is

A direct description of the layout of mesh files of all versions: which bytes of which buffer make up every component
of every vertex, every vertex index and every weight. The library shows a value exactly if the file has it there, and
fails for all other files.
-/

namespace Verif.Props
open Verif MeshData

/-! ## The description -/

/-- A little endian number. -/
def NumberAt (b : Bytes) (p size n : Nat) : Prop :=
  n < 256 ^ size ∧ ∀ k, k < size → b[p + k]? = some (UInt8.ofNat (n / 256 ^ k))

inductive Component where
  | float
  | half
  | byte

def Component.bytes : Component → Nat
  | .float => 4
  | .half => 2
  | .byte => 1

def ComponentAt (F : FloatConv) (b : Bytes) (p : Nat) (x : F32) : Component → Prop
  | .float => NumberAt b p 4 x.toNat
  | .half => ∃ h : UInt16, NumberAt b p 2 h.toNat ∧ x = F.ofHalf h
  | .byte => ∃ h : UInt8, NumberAt b p 1 h.toNat ∧ x = F.ofByte h

/-- The type of the components and their number, for the numbers in the files. -/
def formatV8 : Nat → Option (Component × Nat)
  | 820 => some (.float, 3)
  | 1076 => some (.float, 4)
  | 1079 => some (.float, 2)
  | 1077 => some (.half, 4)
  | 1024 => some (.byte, 4)
  | _ => none

def formatV10 : Nat → Option (Component × Nat)
  | 0 => some (.float, 3)
  | 4 => some (.float, 4)
  | 7 => some (.float, 2)
  | 5 => some (.half, 4)
  | 8 => some (.half, 2)
  | 2 => some (.byte, 4)
  | _ => none

def kindV8 : Nat → Option AttributeUsage
  | 0 => some .Position
  | 1 => some .Normal
  | 3 => some .Tangent
  | 4 => some .TextureCoordinate
  | 8 => some .ColorSet
  | _ => none

def kindV9 : Nat → Option AttributeUsage
  | 0 => some .Position
  | 1 => some .Normal
  | 2 => some .Binormal
  | 3 => some .Tangent
  | 4 => some .TextureCoordinate
  | 5 => some .ColorSet
  | _ => none

/-- What an attribute of a file tells. -/
structure Described where
  kind : Option AttributeUsage
  format : Option (Component × Nat)
  buffer : Nat
  offset : Nat
  IsName : String → Prop

/-- Attributes of 1.8 files have no name. -/
def describeV8 (a : Mesh.AttributeV8) : Described where
  kind := kindV8 a.usage.tag
  format := formatV8 a.data_type.tag
  buffer := a.buffer_index.toNat
  offset := a.buffer_offset.toNat
  IsName t := ∃ start, (a.usage.tag, start) ∈ [(0, "Position"), (1, "Normal"), (3, "Tangent"), (4, "TextureCoordinate"),
    (8, "colorSet")] ∧ t = start ++ toString a.subindex.toNat

/-- The name is the first name of the list. -/
def FirstName (t : String) (names : List SsbhString) : Prop :=
  (names = [] ∧ t = "") ∨ ∃ s rest, names = s :: rest ∧ IsText t s

def describeV9 (a : Mesh.AttributeV9) : Described where
  kind := kindV9 a.usage.tag
  format := formatV8 a.data_type.tag
  buffer := a.buffer_index.toNat
  offset := a.buffer_offset.toNat
  IsName t := FirstName t a.attribute_names

def describeV10 (a : Mesh.AttributeV10) : Described where
  kind := kindV9 a.usage.tag
  format := formatV10 a.data_type.tag
  buffer := a.buffer_index.toNat
  offset := a.buffer_offset.toNat
  IsName t := FirstName t a.attribute_names

def vectorCount : VectorData → Nat
  | .Vector2 v => v.length
  | .Vector3 v => v.length
  | .Vector4 v => v.length

/-- Component `j` of vector `i`. -/
def vectorComponent (d : VectorData) (i j : Nat) : Option F32 :=
  match d with
  | .Vector2 v => v[i]?.bind (·.toList[j]?)
  | .Vector3 v => v[i]?.bind (·.toList[j]?)
  | .Vector4 v => v[i]?.bind (·.toList[j]?)

/-- The position of the data of the object in each of the four buffers, and the distance of vertices. -/
def dataPlace (o : Mesh.MeshObject A) : Nat → Option (Nat × Nat)
  | 0 => some (o.vertex_buffer0_offset.toNat, o.stride0.toNat)
  | 1 => some (o.vertex_buffer1_offset.toNat, o.stride1.toNat)
  | 2 => some (o.vertex_buffer2_offset.toNat, o.stride2.toNat)
  | 3 => some (o.vertex_buffer3_offset.toNat, o.stride3.toNat)
  | _ => none

def ShowsVectors (F : FloatConv) (buffer : Bytes) (start stride count : Nat) (c : Component) (n : Nat) (d : VectorData) :
    Prop :=
  (0 < count → 0 < stride) ∧ vectorSize d = n ∧ vectorCount d = count ∧
  ∀ i j x, vectorComponent d i j = some x → ComponentAt F buffer (start + i * stride + j * c.bytes) x c

def ShowsAttribute (F : FloatConv) (buffers : List Bytes) (o : Mesh.MeshObject A) (d : AttributeData) (a : Described) :
    Prop :=
  a.IsName d.name ∧ ∃ buffer start stride c n, buffers[a.buffer]? = some buffer ∧
    dataPlace o a.buffer = some (start, stride) ∧ a.format = some (c, n) ∧
    ShowsVectors F buffer (start + a.offset) stride o.vertex_count.toNat c n d.data

/-- Indices of two or four bytes. -/
def ShowsIndices (buffer : Bytes) (o : Mesh.MeshObject A) (indices : List UInt32) : Prop :=
  indices.length = o.vertex_index_count.toNat ∧ ∃ size, (o.draw_element_type.tag, size) ∈ [(0, 2), (1, 4)] ∧
  ∀ (k : Nat) x, indices[k]? = some x → NumberAt buffer (o.index_buffer_offset.toNat + k * size) size x.toNat

/-- The text of a string, which must be there. -/
def Names (t : String) (s : SsbhString) : Prop := ∃ c, s = some c ∧ textBytes t = c.bytes

/-- The influences are those of all groups with the name and subindex of the object, in order. -/
def ShowsInfluences (ShowsWeights : List VertexWeight → Wt → Prop) (groups : List (Mesh.RiggingGroup Wt)) (name : String)
    (subindex : UInt64) (is : List BoneInfluence) : Prop :=
  ∃ own : List (Mesh.RiggingGroup Wt), own.Sublist groups ∧
    (∀ p : Mesh.RiggingGroup Wt → Bool, (∀ g, p g = true ↔ Names name g.mesh_object_name ∧ g.mesh_object_subindex = subindex) →
      own = groups.filter p) ∧
    List.Forall₂ (fun (i : BoneInfluence) (b : Mesh.BoneBuffer Wt) =>
      Names i.bone_name b.bone_name ∧ ShowsWeights i.vertex_weights b.data) is (own.flatMap (·.buffers))

def ShowsWeightsV8 (ws : List VertexWeight) (raw : List Mesh.VertexWeightV8) : Prop :=
  List.Forall₂ (fun (w : VertexWeight) (r : Mesh.VertexWeightV8) =>
    w.vertex_index = r.vertex_index ∧ w.vertex_weight = r.vertex_weight) ws raw

/-- Six bytes for a weight: the vertex and the weight. -/
def ShowsWeightsV10 (ws : List VertexWeight) (raw : Bytes) : Prop :=
  ws.length = raw.length / 6 ∧ ∀ (k : Nat) w, ws[k]? = some w →
    NumberAt raw (6 * k) 2 w.vertex_index.toNat ∧ NumberAt raw (6 * k + 2) 4 w.vertex_weight.toNat

structure ShowsObject (F : FloatConv) (describe : A → Described) (ShowsWeights : List VertexWeight → Wt → Prop)
    (m : Mesh.MeshInner A Wt) (d : MeshObjectData) (o : Mesh.MeshObject A) : Prop where
  name : IsText d.name o.name
  subindex : d.subindex = o.subindex
  parent_bone_name : IsText d.parent_bone_name o.parent_bone_name
  sort_bias : d.sort_bias = o.sort_bias
  disable_depth_write : d.disable_depth_write = true ↔ o.depth_flags.disable_depth_write ≠ 0
  disable_depth_test : d.disable_depth_test = true ↔ o.depth_flags.disable_depth_test ≠ 0
  indices : ShowsIndices m.index_buffer o d.vertex_indices
  attributes : ∀ usage, List.Forall₂ (ShowsAttribute F m.vertex_buffers o) (attributesOf d usage)
    ((o.attributes.map describe).filter fun a => a.kind = some usage)
  influences : ShowsInfluences ShowsWeights m.rigging_buffers d.name o.subindex d.bone_influences

def ShowsMesh (F : FloatConv) (d : MeshData) : Mesh → Prop
  | .V8 m => (d.major_version = 1 ∧ d.minor_version = 8) ∧
    List.Forall₂ (ShowsObject F describeV8 ShowsWeightsV8 m) d.objects m.objects
  | .V9 m => (d.major_version = 1 ∧ d.minor_version = 9) ∧
    List.Forall₂ (ShowsObject F describeV9 ShowsWeightsV8 m) d.objects m.objects
  | .V10 m => (d.major_version = 1 ∧ d.minor_version = 10) ∧
    List.Forall₂ (ShowsObject F describeV10 ShowsWeightsV10 m) d.objects m.objects

/-! ## Numbers -/

theorem leBytes_getElem? : ∀ (n x k : Nat), k < n → (leBytes n x)[k]? = some (UInt8.ofNat (x / 256 ^ k))
  | 0, _, _, h => by omega
  | n + 1, x, 0, _ => by simp [leBytes]
  | n + 1, x, k + 1, h => by
    rw [leBytes, List.getElem?_cons_succ, leBytes_getElem? n _ k (by omega), Nat.div_div_eq_div_mul, Nat.pow_succ,
      Nat.mul_comm 256]

theorem numberAt_iff {b : Bytes} {p n x : Nat} (hn : 0 < n) :
    NumberAt b p n x ↔ n ≤ b.length - p ∧ x = fromLe ((b.drop p).take n) := by
  constructor
  · rintro ⟨h1, h2⟩
    have hl : n ≤ b.length - p := by
      have := h2 (n - 1) (by omega)
      obtain ⟨h, _⟩ := List.getElem?_eq_some_iff.mp this
      omega
    refine ⟨hl, ?_⟩
    have : (b.drop p).take n = leBytes n x := by
      apply List.ext_getElem?
      intro k
      by_cases hk : k < n
      · rw [leBytes_getElem? n x k hk, List.getElem?_take_of_lt hk, List.getElem?_drop, h2 k hk]
      · rw [List.getElem?_eq_none (by simp; omega), List.getElem?_eq_none (by rw [leBytes_length]; omega)]
    rw [this, fromLe_leBytes, Nat.mod_eq_of_lt h1]
  · rintro ⟨hl, rfl⟩
    have hlen : ((b.drop p).take n).length = n := by simp; omega
    have hb := leBytes_fromLe ((b.drop p).take n)
    rw [hlen] at hb
    refine ⟨by have := fromLe_lt ((b.drop p).take n); rwa [hlen] at this, ?_⟩
    intro k hk
    rw [← leBytes_getElem? n _ k hk, hb, List.getElem?_take_of_lt hk, List.getElem?_drop]

theorem readLe_iff {n : Nat} (hn : 0 < n) {b : Bytes} {p x q : Nat} :
    readLe n b p = .ok (x, q) ↔ q = p + n ∧ NumberAt b p n x := by
  rw [numberAt_iff hn]
  constructor
  · intro h
    have := readLe_ok h
    exact ⟨this.2.2, this.1, this.2.1⟩
  · rintro ⟨rfl, hl, rfl⟩
    have hlen : ((b.drop p).take n).length = n := by simp; omega
    unfold readLe readBytes
    rw [if_pos (by omega)]

/-- A codec of plain numbers. -/
structure Numbers (c : Codec α) (size : Nat) (toNat : α → Nat) : Prop where
  read : ∀ b p a q, c.read b p = .ok (a, q) ↔ q = p + size ∧ NumberAt b p size (toNat a)

theorem prim_numbers {n : Nat} (hn : 0 < n) {toNat : α → Nat} {ofNat : Nat → α} (h1 : ∀ a, ofNat (toNat a) = a)
    (h2 : ∀ x, x < 256 ^ n → toNat (ofNat x) = x) : Numbers (prim n toNat fun x => some (ofNat x)) n toNat where
  read b p a q := by
    simp only [prim]
    constructor
    · intro h
      split at h
      · cases h
      · rename_i x p' hx
        cases h
        rw [readLe_iff hn] at hx
        rw [h2 _ hx.2.1]
        exact hx
    · intro h
      rw [(readLe_iff hn).mpr h]
      simp [h1]

theorem u8_numbers : Numbers u8 1 UInt8.toNat :=
  prim_numbers (by decide) (fun a => by simp) (fun x hx => by simp; omega)
theorem u16_numbers : Numbers u16 2 UInt16.toNat :=
  prim_numbers (by decide) (fun a => by simp) (fun x hx => by simp; omega)
theorem u32_numbers : Numbers u32 4 UInt32.toNat :=
  prim_numbers (by decide) (fun a => by simp) (fun x hx => by simp; omega)

/-! ## Sequences -/

theorem readNumbers_iff {c : Codec α} {size : Nat} {toNat : α → Nat} (hc : Numbers c size toNat) (f : α → β) (b : Bytes) :
    ∀ (n p : Nat) (xs : List β), (∃ l q, readElems c n b p = .ok (l, q) ∧ l.map f = xs) ↔
      xs.length = n ∧ ∀ (j : Nat) x, xs[j]? = some x → ∃ a, NumberAt b (p + j * size) size (toNat a) ∧ x = f a
  | 0, p, xs => by
    constructor
    · rintro ⟨l, q, h, rfl⟩
      cases h
      simp
    · rintro ⟨h, _⟩
      rw [List.length_eq_zero_iff] at h
      subst h
      exact ⟨[], p, rfl, rfl⟩
  | n + 1, p, xs => by
    have ih := readNumbers_iff hc f b n (p + size)
    constructor
    · rintro ⟨l, q, h, rfl⟩
      rw [readElems] at h
      split at h
      · cases h
      rename_i v p1 hv
      split at h
      · cases h
      rename_i vs p2 hvs
      cases h
      obtain ⟨rfl, hv'⟩ := (hc.read _ _ _ _).mp hv
      obtain ⟨h1, h2⟩ := (ih (vs.map f)).mp ⟨vs, q, hvs, rfl⟩
      refine ⟨by simpa using h1, ?_⟩
      intro j x hx
      cases j with
      | zero =>
        simp only [List.map_cons, List.getElem?_cons_zero, Option.some.injEq] at hx
        exact ⟨v, by simpa using hv', hx.symm⟩
      | succ j =>
        simp only [List.map_cons, List.getElem?_cons_succ] at hx
        obtain ⟨a, ha, e⟩ := h2 j x hx
        refine ⟨a, ?_, e⟩
        rw [show p + (j + 1) * size = p + size + j * size by ring]
        exact ha
    · rintro ⟨h1, h2⟩
      cases xs with
      | nil => simp at h1
      | cons x xs =>
        obtain ⟨a, ha, e⟩ := h2 0 x rfl
        obtain ⟨l, q, hl, hm⟩ := (ih xs).mpr ⟨by simpa using h1, fun j y hy => by
          obtain ⟨a, ha, e⟩ := h2 (j + 1) y (by simpa using hy)
          refine ⟨a, ?_, e⟩
          rw [show p + size + j * size = p + (j + 1) * size by ring]
          exact ha⟩
        refine ⟨a :: l, q, ?_, by rw [List.map_cons, hm, e]⟩
        rw [readElems, (hc.read _ _ _ _).mpr ⟨rfl, by simpa using ha⟩]
        simp only [hl]

theorem arrayN_iff {c : Codec α} {size : Nat} {toNat : α → Nat} (hc : Numbers c size toNat) (f : α → β) (b : Bytes)
    (n p : Nat) (x : Vector β n) : (∃ v q, (arrayN n c).read b p = .ok (v, q) ∧ v.map f = x) ↔
      ∀ (j : Nat) y, x.toList[j]? = some y → ∃ a, NumberAt b (p + j * size) size (toNat a) ∧ y = f a := by
  have h := readNumbers_iff hc f b n p x.toList
  simp only [Vector.length_toList, true_and] at h
  rw [← h]
  constructor
  · rintro ⟨v, q, hv, rfl⟩
    simp only [arrayN] at hv
    split at hv
    · cases hv
    rename_i vs p' hvs
    split at hv
    · cases hv
      exact ⟨vs, q, hvs, by simp [Vector.toList]⟩
    · cases hv
  · rintro ⟨l, q, hl, hm⟩
    have hn : l.length = n := by rw [← List.length_map (f := f), hm]; simp
    refine ⟨⟨l.toArray, by simpa using hn⟩, q, ?_, ?_⟩
    · simp only [arrayN, hl, hn, dite_true]
    · apply Vector.toList_inj.mp
      rw [← hm]
      simp [Vector.toList]

theorem readVectors_iff {c : Codec α} {size : Nat} {toNat : α → Nat} (hc : Numbers c size toNat) (f : α → F32) (n : Nat)
    (b : Bytes) (offset stride : Nat) : ∀ (count i : Nat) (vs : List (Vector F32 n)),
      VectorData.readVectors c f n b offset stride i count = .ok vs ↔
        vs.length = count ∧ ∀ (k : Nat) v, vs[k]? = some v → ∀ (j : Nat) y, v.toList[j]? = some y →
          ∃ a, NumberAt b (offset + (i + k) * stride + j * size) size (toNat a) ∧ y = f a
  | 0, i, vs => by
    simp only [VectorData.readVectors, Except.ok.injEq, List.length_eq_zero_iff]
    constructor
    · rintro rfl; simp
    · rintro ⟨rfl, _⟩; rfl
  | count + 1, i, vs => by
    have ih := readVectors_iff hc f n b offset stride count (i + 1)
    have ha := arrayN_iff hc f b n (offset + i * stride)
    rw [VectorData.readVectors]
    constructor
    · intro h
      split at h
      · cases h
      rename_i v q hv
      split at h
      · cases h
      rename_i ws hws
      cases h
      obtain ⟨h1, h2⟩ := (ih ws).mp hws
      refine ⟨by simpa using h1, ?_⟩
      intro k w hk
      cases k with
      | zero =>
        simp only [List.getElem?_cons_zero, Option.some.injEq] at hk
        subst hk
        simpa using (ha _).mp ⟨v, q, hv, rfl⟩
      | succ k =>
        have := h2 k w (by simpa using hk)
        rwa [show i + 1 + k = i + (k + 1) by omega] at this
    · rintro ⟨h1, h2⟩
      cases vs with
      | nil => simp at h1
      | cons v vs =>
        obtain ⟨u, q, hu, e⟩ := (ha v).mpr (by simpa using h2 0 v rfl)
        have hr := (ih vs).mpr ⟨by simpa using h1, fun k w hk => by
          have := h2 (k + 1) w (by simpa using hk)
          rwa [show i + (k + 1) = i + 1 + k by omega] at this⟩
        simp only [hu, hr, e]

theorem readVectorData_iff {c : Codec α} {size : Nat} {toNat : α → Nat} (hc : Numbers c size toNat) (f : α → F32) (n : Nat)
    (b : Bytes) (count offset stride : Nat) (vs : List (Vector F32 n)) :
    VectorData.readVectorData c f n b count offset stride = .ok vs ↔ (0 < count → 0 < stride) ∧
        vs.length = count ∧ ∀ i j y, vs[i]?.bind (·.toList[j]?) = some y →
          ∃ a, NumberAt b (offset + i * stride + j * size) size (toNat a) ∧ y = f a := by
  unfold VectorData.readVectorData
  split
  · rename_i h
    constructor
    · intro h'; cases h'
    · rintro ⟨h', _⟩; have := h' h.1; omega
  · rename_i h
    rw [readVectors_iff hc]
    have hs : 0 < count → 0 < stride := by intro h'; by_contra hh; exact h ⟨h', by omega⟩
    constructor
    · rintro ⟨h1, h2⟩
      refine ⟨hs, h1, ?_⟩
      intro i j y hy
      obtain ⟨v, hv, hj⟩ := Option.bind_eq_some_iff.mp hy
      simpa using h2 i v hv j y hj
    · rintro ⟨_, h1, h2⟩
      refine ⟨h1, ?_⟩
      intro i v hv j y hj
      simpa using h2 i j y (Option.bind_eq_some_iff.mpr ⟨v, hv, hj⟩)

theorem map_ok_iff {f : α → β} {x : Except ε α} {y : β} : x.map f = .ok y ↔ ∃ v, x = .ok v ∧ f v = y := by
  cases x <;> simp [Except.map]

/-- The formats of the types of the data. -/
def formatOf : VectorData.DataType → Component × Nat
  | .Float2 => (.float, 2)
  | .Float3 => (.float, 3)
  | .Float4 => (.float, 4)
  | .HalfFloat2 => (.half, 2)
  | .HalfFloat4 => (.half, 4)
  | .Byte4 => (.byte, 4)

theorem floatAt {b : Bytes} {p : Nat} {y : F32} :
    (∃ a : F32, NumberAt b p 4 a.toNat ∧ y = a) ↔ NumberAt b p 4 y.toNat :=
  ⟨by rintro ⟨_, h, rfl⟩; exact h, fun h => ⟨y, h, rfl⟩⟩

theorem vectorRead_iff (F : FloatConv) (b : Bytes) (count offset stride : Nat) (t : VectorData.DataType) (d : VectorData) :
    VectorData.read F b count offset stride t = .ok d ↔
      ShowsVectors F b offset stride count (formatOf t).1 (formatOf t).2 d := by
  cases t <;> simp only [VectorData.read, map_ok_iff, readVectorData_iff u32_numbers, readVectorData_iff u16_numbers,
    readVectorData_iff u8_numbers, f32, formatOf, ShowsVectors, floatAt] <;>
    (cases d <;> simp [vectorSize, vectorCount, vectorComponent, ComponentAt, Component.bytes])

/-! ## Attributes -/

theorem collect_iff {f : α → Except ε β} : ∀ {l : List α} {ys : List β},
    collect f l = .ok ys ↔ List.Forall₂ (fun y x => f x = .ok y) ys l
  | [], ys => by
    simp only [collect, Except.ok.injEq, List.forall₂_nil_right_iff]
    exact eq_comm
  | x :: l, ys => by
    rw [collect, List.forall₂_cons_right_iff]
    cases hf : f x with
    | error e => simp
    | ok y =>
      cases hc : collect f l with
      | error e =>
        simp only [reduceCtorEq, Except.ok.injEq, false_iff, not_exists]
        rintro y' ys' ⟨_, h, _⟩
        rw [← collect_iff, hc] at h
        cases h
      | ok zs =>
        have := collect_iff (f := f) (l := l) (ys := zs)
        simp only [hc, true_iff] at this
        simp only [Except.ok.injEq]
        constructor
        · rintro rfl; exact ⟨y, zs, rfl, this, rfl⟩
        · rintro ⟨y', ys', rfl, h, rfl⟩
          rw [← collect_iff, hc] at h
          cases h
          rfl

theorem place_iff (a : MeshAttribute) (o : Mesh.MeshObject A) (s t : Nat) :
    calculateOffsetStride a o = .ok (s, t) ↔ ∃ start, dataPlace o a.index = some (start, t) ∧ s = start + a.offset := by
  unfold calculateOffsetStride dataPlace
  split <;> simp_all [Nat.add_comm] <;> (first | grind | skip)

/-- What the description of an attribute has to do with the attribute the code works with. -/
structure Describes (a : MeshAttribute) (u : AttributeUsage) (d : Described) : Prop where
  kind : d.kind = some u
  format : d.format = some (formatOf a.data_type)
  buffer : d.buffer = a.index
  offset : d.offset = a.offset
  name : ∀ t, d.IsName t ↔ t = a.name

theorem attribute_iff (F : FloatConv) (buffers : List Bytes) (o : Mesh.MeshObject A) {a : MeshAttribute}
    {u : AttributeUsage} {v : Described} (hv : Describes a u v) (d : AttributeData) :
    ((readAttributeData F buffers o a).map fun x => AttributeData.mk a.name x) = .ok d ↔
      ShowsAttribute F buffers o d v := by
  unfold ShowsAttribute
  rw [map_ok_iff, hv.name, hv.buffer, hv.offset, hv.format]
  unfold readAttributeData
  constructor
  · rintro ⟨x, hx, rfl⟩
    refine ⟨rfl, ?_⟩
    split at hx
    · cases hx
    rename_i buffer hb
    split at hx
    · cases hx
    rename_i offset stride hp
    obtain ⟨start, hs, rfl⟩ := (place_iff a o _ _).mp hp
    exact ⟨buffer, start, stride, _, _, hb, hs, rfl, (vectorRead_iff ..).mp hx⟩
  · rintro ⟨hn, buffer, start, stride, c, n, hb, hs, hf, hd⟩
    obtain ⟨rfl, rfl⟩ : (formatOf a.data_type).1 = c ∧ (formatOf a.data_type).2 = n := by
      rw [Option.some.injEq] at hf
      simp [hf]
    refine ⟨d.data, ?_, by rw [← hn]⟩
    simp only [hb, (place_iff a o _ _).mpr ⟨start, hs, rfl⟩]
    exact (vectorRead_iff ..).mpr hd

theorem attributes_iff [Attribute A] {describe : A → Described}
    (hv : ∀ a : A, Describes (Attribute.toAttribute a) (Attribute.usage a) (describe a)) (F : FloatConv)
    (buffers : List Bytes) (o : Mesh.MeshObject A) (u : AttributeUsage) (ds : List AttributeData) :
    readAttributes F buffers o u = .ok ds ↔ List.Forall₂ (ShowsAttribute F buffers o) ds
      ((o.attributes.map describe).filter fun a => a.kind = some u) := by
  have hl : (o.attributes.map describe).filter (fun a => a.kind = some u) =
      (o.attributes.filter fun a => Attribute.usage a = u).map describe := by
    rw [List.filter_map]
    congr 1
    apply List.filter_congr
    intro a _
    simp only [Function.comp, (hv a).kind, Option.some.injEq]
  rw [hl, readAttributes, collect_iff, getAttributes, List.forall₂_map_right_iff, List.forall₂_map_right_iff]
  simp only [attribute_iff F buffers o (hv _)]

theorem isText_iff {t : String} {s : SsbhString} : IsText t s ↔ t = toStringLossy s :=
  ⟨fun h => h.unique (isText_lossy s), fun h => h ▸ isText_lossy s⟩

theorem firstName_iff {t : String} {names : List SsbhString} : FirstName t names ↔ t = firstName names := by
  unfold FirstName firstName
  cases names with
  | nil => simp
  | cons s rest =>
    constructor
    · rintro (⟨h, _⟩ | ⟨s', r, h, ht⟩)
      · cases h
      · cases h; exact isText_iff.mp ht
    · intro h
      exact .inr ⟨s, rest, rfl, isText_iff.mpr h⟩

theorem describesV8 (a : Mesh.AttributeV8) : Describes (Attribute.toAttribute a) (Attribute.usage a) (describeV8 a) := by
  obtain ⟨⟨u, hu⟩, ⟨t, ht⟩, i, o, s⟩ := a
  refine ⟨?_, ?_, rfl, rfl, ?_⟩
  · simp only [List.mem_cons, List.not_mem_nil, or_false] at hu
    rcases hu with rfl | rfl | rfl | rfl | rfl <;> rfl
  · simp only [List.mem_cons, List.not_mem_nil, or_false] at ht
    rcases ht with rfl | rfl | rfl | rfl | rfl <;> rfl
  · intro x
    simp only [List.mem_cons, List.not_mem_nil, or_false] at hu
    rcases hu with rfl | rfl | rfl | rfl | rfl <;>
      simp [describeV8, Attribute.toAttribute, nameV8, Mesh.AttributeUsageV8.Position, Mesh.AttributeUsageV8.Normal,
        Mesh.AttributeUsageV8.Tangent, Mesh.AttributeUsageV8.TextureCoordinate]

theorem describesV9 (a : Mesh.AttributeV9) : Describes (Attribute.toAttribute a) (Attribute.usage a) (describeV9 a) := by
  obtain ⟨⟨u, hu⟩, ⟨t, ht⟩, i, o, s, n, ns⟩ := a
  refine ⟨?_, ?_, rfl, rfl, fun x => firstName_iff⟩
  · simp only [List.mem_cons, List.not_mem_nil, or_false] at hu
    rcases hu with rfl | rfl | rfl | rfl | rfl | rfl <;> rfl
  · simp only [List.mem_cons, List.not_mem_nil, or_false] at ht
    rcases ht with rfl | rfl | rfl | rfl | rfl <;> rfl

theorem describesV10 (a : Mesh.AttributeV10) : Describes (Attribute.toAttribute a) (Attribute.usage a) (describeV10 a) := by
  obtain ⟨⟨u, hu⟩, ⟨t, ht⟩, i, o, s, n, ns⟩ := a
  refine ⟨?_, ?_, rfl, rfl, fun x => firstName_iff⟩
  · simp only [List.mem_cons, List.not_mem_nil, or_false] at hu
    rcases hu with rfl | rfl | rfl | rfl | rfl | rfl <;> rfl
  · simp only [List.mem_cons, List.not_mem_nil, or_false] at ht
    rcases ht with rfl | rfl | rfl | rfl | rfl | rfl <;> rfl

/-! ## Indices -/

theorem readData_iff {c : Codec α} {size : Nat} {toNat : α → Nat} (hc : Numbers c size toNat) (f : α → UInt32) (b : Bytes)
    (count offset : Nat) (xs : List UInt32) : readData c f b count offset = .ok xs ↔
      xs.length = count ∧ ∀ (j : Nat) x, xs[j]? = some x → ∃ a, NumberAt b (offset + j * size) size (toNat a) ∧ x = f a := by
  rw [← readNumbers_iff hc f b count offset xs, readData]
  cases readElems c count b offset with
  | error e => simp
  | ok r => obtain ⟨l, q⟩ := r; simp

theorem short_iff {b : Bytes} {p : Nat} {x : UInt32} :
    (∃ a : UInt16, NumberAt b p 2 a.toNat ∧ x = a.toUInt32) ↔ NumberAt b p 2 x.toNat := by
  constructor
  · rintro ⟨a, h, rfl⟩
    simpa using h
  · intro h
    have hx : x.toNat < 65536 := h.1
    refine ⟨UInt16.ofNat x.toNat, ?_, ?_⟩
    · rwa [UInt16.toNat_ofNat_of_lt' hx]
    · apply UInt32.toNat_inj.mp
      simp
      omega

theorem indices_iff (b : Bytes) (o : Mesh.MeshObject A) (xs : List UInt32) :
    readVertexIndices b o = .ok xs ↔ ShowsIndices b o xs := by
  unfold readVertexIndices ShowsIndices
  generalize o.draw_element_type = t
  obtain ⟨t, ht⟩ := t
  simp only [List.mem_cons, List.not_mem_nil, or_false] at ht
  rcases ht with rfl | rfl
  · rw [show (⟨0, ht⟩ : Mesh.DrawElementType) = Mesh.DrawElementType.UnsignedShort from rfl, if_pos rfl, readData_iff u16_numbers]
    simp only [short_iff]
    simp [Mesh.DrawElementType.UnsignedShort]
  · rw [if_neg (by simp [Mesh.DrawElementType.UnsignedShort]), readData_iff u32_numbers]
    simp only [floatAt]
    simp

/-! ## Influences -/

theorem names_iff {t : String} {s : SsbhString} : Names t s ↔ ssbhToStr s = some t := by
  unfold Names
  cases s with
  | none => simp [ssbhToStr]
  | some c =>
    simp only [ssbhToStr, CStr.toStr, Option.some.injEq]
    constructor
    · rintro ⟨_, rfl, h⟩
      rw [← h, fromUtf8_textBytes]
    · intro h
      exact ⟨c, rfl, textBytes_of_fromUtf8 h⟩

theorem influence_iff [Weight Wt] {ShowsWeights : List VertexWeight → Wt → Prop}
    (hw : ∀ ws (raw : Wt), ShowsWeights ws raw ↔ ws = Weight.toWeights raw) (g : Mesh.RiggingGroup Wt)
    (is : List BoneInfluence) : readInfluences g = .ok is ↔
      List.Forall₂ (fun (i : BoneInfluence) (b : Mesh.BoneBuffer Wt) =>
        Names i.bone_name b.bone_name ∧ ShowsWeights i.vertex_weights b.data) is g.buffers := by
  rw [readInfluences, collect_iff]
  have : ∀ (i : BoneInfluence) (b : Mesh.BoneBuffer Wt), (match ssbhToStr b.bone_name with
      | none => Except.error MeshErr.boneName
      | some name => Except.ok (BoneInfluence.mk name (Weight.toWeights b.data))) = .ok i ↔
        Names i.bone_name b.bone_name ∧ ShowsWeights i.vertex_weights b.data := by
    intro i b
    rw [names_iff, hw]
    cases ssbhToStr b.bone_name with
    | none => simp
    | some name =>
      obtain ⟨n, ws⟩ := i
      simp only [Except.ok.injEq, BoneInfluence.mk.injEq, Option.some.injEq]
      exact and_congr_right fun _ => eq_comm
  exact ⟨List.Forall₂.imp fun i b => (this i b).mp, List.Forall₂.imp fun i b => (this i b).mpr⟩

theorem forall₂_flatten {R : β → γ → Prop} {f : α → List γ} : ∀ {gs : List α} {is : List β},
    (∃ iss, List.Forall₂ (fun l g => List.Forall₂ R l (f g)) iss gs ∧ iss.flatten = is) ↔
      List.Forall₂ R is (gs.flatMap f)
  | [], is => by
    simp only [List.forall₂_nil_right_iff, exists_eq_left, List.flatten_nil, List.flatMap_nil]
    exact eq_comm
  | g :: gs, is => by
    rw [List.flatMap_cons]
    constructor
    · rintro ⟨iss, h, rfl⟩
      obtain ⟨l, ls, h1, h2, rfl⟩ := List.forall₂_cons_right_iff.mp h
      rw [List.flatten_cons]
      exact List.rel_append h1 (forall₂_flatten.mp ⟨ls, h2, rfl⟩)
    · intro h
      have h1 := List.forall₂_take_append is (f g) (gs.flatMap f) h
      have h2 := List.forall₂_drop_append is (f g) (gs.flatMap f) h
      obtain ⟨iss, h3, h4⟩ := forall₂_flatten.mpr h2
      exact ⟨_ :: iss, .cons h1 h3, by rw [List.flatten_cons, h4, List.take_append_drop]⟩

theorem influences_iff [Weight Wt] {ShowsWeights : List VertexWeight → Wt → Prop}
    (hw : ∀ ws (raw : Wt), ShowsWeights ws raw ↔ ws = Weight.toWeights raw) (groups : List (Mesh.RiggingGroup Wt))
    (name : String) (subindex : UInt64) (is : List BoneInfluence) :
    readRiggingData groups name subindex = .ok is ↔ ShowsInfluences ShowsWeights groups name subindex is := by
  have key : readRiggingData groups name subindex = .ok is ↔
      List.Forall₂ (fun (i : BoneInfluence) (b : Mesh.BoneBuffer Wt) =>
        Names i.bone_name b.bone_name ∧ ShowsWeights i.vertex_weights b.data) is
        ((groups.filter fun g => ssbhToStr g.mesh_object_name = some name ∧ g.mesh_object_subindex = subindex).flatMap
          (·.buffers)) := by
    rw [readRiggingData, map_ok_iff, ← forall₂_flatten]
    simp only [collect_iff, influence_iff hw]
  rw [key]
  have hp : ∀ p : Mesh.RiggingGroup Wt → Bool,
      (∀ g, p g = true ↔ Names name g.mesh_object_name ∧ g.mesh_object_subindex = subindex) →
      (groups.filter fun g => ssbhToStr g.mesh_object_name = some name ∧ g.mesh_object_subindex = subindex) =
        groups.filter p := by
    intro p h
    apply List.filter_congr
    intro g _
    rw [Bool.eq_iff_iff, h g, names_iff]
    simp
  constructor
  · intro h
    exact ⟨_, List.filter_sublist, hp, h⟩
  · rintro ⟨own, _, ho, h⟩
    rwa [ho (fun g => ssbhToStr g.mesh_object_name = some name ∧ g.mesh_object_subindex = subindex)
      (fun g => by rw [names_iff]; simp)] at h

theorem weightsV8_iff (ws : List VertexWeight) (raw : List Mesh.VertexWeightV8) :
    ShowsWeightsV8 ws raw ↔ ws = Weight.toWeights raw := by
  show ShowsWeightsV8 ws raw ↔ ws = raw.map fun w => ⟨w.vertex_index, w.vertex_weight⟩
  unfold ShowsWeightsV8
  constructor
  · intro h
    induction h with
    | nil => rfl
    | cons h _ ih => rw [List.map_cons, ← ih, ← h.1, ← h.2]
  · rintro rfl
    exact forall₂_map (fun _ => ⟨rfl, rfl⟩) _

theorem NumberAt.unique {b : Bytes} {p n x y : Nat} (hn : 0 < n) (hx : NumberAt b p n x) (hy : NumberAt b p n y) : x = y := by
  rw [numberAt_iff hn] at hx hy
  rw [hx.2, hy.2]

theorem readWeights_shows : ∀ (n : Nat) (raw : Bytes), raw.length ≤ n → ShowsWeightsV10 (readWeightsV10 raw) raw
  | 0, raw, h => by
    rw [Nat.le_zero, List.length_eq_zero_iff] at h
    subst h
    exact ⟨rfl, fun k w hk => by simp [readWeightsV10] at hk⟩
  | n + 1, raw, h => by
    match raw with
    | a :: b :: c :: d :: e :: f :: rest =>
      obtain ⟨h1, h2⟩ := readWeights_shows n rest (by simp at h; omega)
      rw [readWeightsV10]
      refine ⟨by simp [h1]; omega, ?_⟩
      intro k w hk
      cases k with
      | zero =>
        simp only [List.getElem?_cons_zero, Option.some.injEq] at hk
        subst hk
        have l1 := fromLe_lt [a, b]
        have l2 := fromLe_lt [c, d, e, f]
        simp only [List.length_cons, List.length_nil] at l1 l2
        rw [numberAt_iff (by decide), numberAt_iff (by decide)]
        simp only [UInt32.toNat_ofNat']
        refine ⟨⟨by simp, ?_⟩, by simp, ?_⟩
        · simp only [Nat.mul_zero, List.drop_zero, List.take_succ_cons, List.take_zero]
          exact Nat.mod_eq_of_lt (by omega)
        · simp only [Nat.mul_zero, Nat.zero_add, List.drop_succ_cons, List.drop_zero, List.take_succ_cons, List.take_zero]
          exact Nat.mod_eq_of_lt (by omega)
      | succ k =>
        have := h2 k w (by simpa using hk)
        unfold NumberAt at *
        have e1 : ∀ i, (a :: b :: c :: d :: e :: f :: rest)[6 * (k + 1) + i]? = rest[6 * k + i]? := by
          intro i
          rw [show 6 * (k + 1) + i = 6 * k + i + 6 by ring]
          rfl
        simp only [Nat.add_assoc, e1] at *
        exact this
    | [] => exact ⟨rfl, fun k w hk => by simp [readWeightsV10] at hk⟩
    | [_] => exact ⟨by simp [readWeightsV10], fun k w hk => by simp [readWeightsV10] at hk⟩
    | [_, _] => exact ⟨by simp [readWeightsV10], fun k w hk => by simp [readWeightsV10] at hk⟩
    | [_, _, _] => exact ⟨by simp [readWeightsV10], fun k w hk => by simp [readWeightsV10] at hk⟩
    | [_, _, _, _] => exact ⟨by simp [readWeightsV10], fun k w hk => by simp [readWeightsV10] at hk⟩
    | [_, _, _, _, _] => exact ⟨by simp [readWeightsV10], fun k w hk => by simp [readWeightsV10] at hk⟩

theorem weightsV10_iff (ws : List VertexWeight) (raw : Bytes) : ShowsWeightsV10 ws raw ↔ ws = Weight.toWeights raw := by
  show ShowsWeightsV10 ws raw ↔ ws = readWeightsV10 raw
  obtain ⟨l, hs⟩ := readWeights_shows _ raw le_rfl
  constructor
  · rintro ⟨l', hs'⟩
    apply List.ext_getElem (l'.trans l.symm)
    intro k h1 h2
    obtain ⟨a1, a2⟩ := hs' k _ (List.getElem?_eq_getElem h1)
    obtain ⟨b1, b2⟩ := hs k _ (List.getElem?_eq_getElem h2)
    generalize ws[k] = u at *
    generalize (readWeightsV10 raw)[k] = v at *
    obtain ⟨i, x⟩ := u
    obtain ⟨j, y⟩ := v
    simp only at a1 a2 b1 b2
    rw [UInt32.toNat_inj.mp (NumberAt.unique (by decide) a1 b1), UInt32.toNat_inj.mp (NumberAt.unique (by decide) a2 b2)]
  · rintro rfl
    exact ⟨l, hs⟩

/-! ## Objects and files -/

theorem object_iff [Attribute A] {describe : A → Described}
    (hv : ∀ a : A, Describes (Attribute.toAttribute a) (Attribute.usage a) (describe a)) [Weight Wt]
    {ShowsWeights : List VertexWeight → Wt → Prop} (hw : ∀ ws (raw : Wt), ShowsWeights ws raw ↔ ws = Weight.toWeights raw)
    (F : FloatConv) (m : Mesh.MeshInner A Wt) (o : Mesh.MeshObject A) (d : MeshObjectData) :
    readMeshObject F m o = .ok d ↔ ShowsObject F describe ShowsWeights m d o := by
  constructor
  · intro h
    simp only [readMeshObject, bind, Except.bind, pure, Except.pure] at h
    split at h
    · cases h
    rename_i is h0
    split at h
    · cases h
    rename_i a1 h1
    split at h
    · cases h
    rename_i a2 h2
    split at h
    · cases h
    rename_i a3 h3
    split at h
    · cases h
    rename_i a4 h4
    split at h
    · cases h
    rename_i a5 h5
    split at h
    · cases h
    rename_i a6 h6
    split at h
    · cases h
    rename_i a7 h7
    cases h
    refine ⟨isText_lossy _, rfl, isText_lossy _, rfl, by simp, by simp, (indices_iff ..).mp h0, ?_,
      (influences_iff hw ..).mp h7⟩
    intro u
    cases u <;> exact (attributes_iff hv ..).mp (by assumption)
  · rintro ⟨n, s, p, sb, dw, dt, is, as, inf⟩
    have ha := fun u => (attributes_iff hv F m.vertex_buffers o u _).mpr (as u)
    rw [isText_iff] at n p
    rw [← influences_iff hw, n] at inf
    rw [← indices_iff] at is
    have h1 := ha .Position
    have h2 := ha .Normal
    have h3 := ha .Tangent
    have h4 := ha .Binormal
    have h5 := ha .TextureCoordinate
    have h6 := ha .ColorSet
    simp only [attributesOf] at h1 h2 h3 h4 h5 h6
    simp only [readMeshObject, bind, Except.bind, pure, Except.pure, is, h1, h2, h3, h4, h5, h6, inf]
    obtain ⟨⟩ := d
    simp only at n s p sb dw dt
    simp only [Except.ok.injEq, MeshObjectData.mk.injEq, n, s, p, sb, true_and, and_true]
    constructor <;> rw [Bool.eq_iff_iff] <;> simp [dw, dt]

theorem ofMesh_iff (F : FloatConv) (m : Mesh) (d : MeshData) : ofMesh F m = .ok d ↔ ShowsMesh F d m := by
  obtain ⟨major, minor, objects⟩ := d
  cases m with
  | V8 m =>
    simp only [ofMesh, map_ok_iff, readMeshObjectsInner, collect_iff, object_iff describesV8 weightsV8_iff,
      MeshData.mk.injEq, ShowsMesh]
    constructor
    · rintro ⟨os, h, rfl, rfl, rfl⟩; exact ⟨⟨rfl, rfl⟩, h⟩
    · rintro ⟨⟨rfl, rfl⟩, h⟩; exact ⟨_, h, rfl, rfl, rfl⟩
  | V9 m =>
    simp only [ofMesh, map_ok_iff, readMeshObjectsInner, collect_iff, object_iff describesV9 weightsV8_iff,
      MeshData.mk.injEq, ShowsMesh]
    constructor
    · rintro ⟨os, h, rfl, rfl, rfl⟩; exact ⟨⟨rfl, rfl⟩, h⟩
    · rintro ⟨⟨rfl, rfl⟩, h⟩; exact ⟨_, h, rfl, rfl, rfl⟩
  | V10 m =>
    simp only [ofMesh, map_ok_iff, readMeshObjectsInner, collect_iff, object_iff describesV10 weightsV10_iff,
      MeshData.mk.injEq, ShowsMesh]
    constructor
    · rintro ⟨os, h, rfl, rfl, rfl⟩; exact ⟨⟨rfl, rfl⟩, h⟩
    · rintro ⟨⟨rfl, rfl⟩, h⟩; exact ⟨_, h, rfl, rfl, rfl⟩

/-- The data read from a mesh file is the data which the file has at the described places, for files of any origin. If
there is no such data (something is outside of its buffer, a buffer or a bone name is missing, or vertices have no
distance) then reading fails. -/
theorem C57_layout (F : FloatConv) (bytes : Bytes) (m : Mesh) (h : readAs Mesh bytes = .ok m) (d : MeshData) :
    MeshData.read F bytes = .ok d ↔ ShowsMesh F d m := by
  rw [← ofMesh_iff, MeshData.read, h]
  simp only [liftRead]
  cases ofMesh F m <;> simp

/-- Saved data is at the described places. -/
theorem C57_saved (F : FloatConv) (bounds : List (Vector F32 3) → Mesh.BoundingInfo) (d : MeshData) (bytes : Bytes)
    (h : d.write F bounds = .ok bytes) (hl : bytes.length < 2 ^ 32)
    (hn : d.objects.Pairwise fun a b => ¬ (cutNul a.name = cutNul b.name ∧ a.subindex = b.subindex)) :
    ∃ m, readAs Mesh bytes = .ok m ∧
      ShowsMesh F { d with objects := d.objects.map (storedObject F d.minor_version) } m := by
  have hr := C45_mesh F bounds d bytes h hl hn
  cases hm : readAs Mesh bytes with
  | error e =>
    rw [MeshData.read, hm] at hr
    cases hr
  | ok m => exact ⟨m, rfl, (C57_layout F bytes m hm _).mp hr⟩

/-! ## The numbers of smaller components -/

def halfExponent (h : UInt16) : Nat := h.toNat / 2 ^ 10 % 32

/-- The number a finite half float stands for. -/
def halfValue (h : UInt16) : ℚ :=
  (if h.toNat < 2 ^ 15 then 1 else -1) *
    (if halfExponent h = 0 then ((h.toNat % 2 ^ 10 : Nat) : ℚ) / 2 ^ 24
     else (2 ^ 10 + ((h.toNat % 2 ^ 10 : Nat) : ℚ)) * 2 ^ halfExponent h / 2 ^ 25)

open Ieee in
theorem half_fin_iff (h : UInt16) (hf : halfExponent h ≠ 31) : (ofBits16 h).Fin := by
  unfold halfExponent at hf
  unfold Fl.Fin
  rw [half_inf]
  unfold ofBits16
  have hx := h.toNat_lt
  simp only
  omega

open Ieee in
theorem halfValue_eq (h : UInt16) : halfValue h = (ofBits16 h).val := by
  have hx := h.toNat_lt
  have hneg : (ofBits16 h).neg = decide (¬ h.toNat < 2 ^ 15) := by
    unfold ofBits16
    simp only [Nat.testBit_eq_decide_div_mod_eq]
    congr 1
    simp only [not_lt, eq_iff_iff]
    omega
  rw [Fl.val, hneg, halfValue]
  congr 1
  · unfold sg
    by_cases h : h.toNat < 2 ^ 15
    · rw [if_pos h, decide_eq_false (not_not.mpr h)]; rfl
    · rw [if_neg h, decide_eq_true h]; rfl
  · have hm : (ofBits16 h).mag = h.toNat % 2 ^ 15 := rfl
    rw [half_scale]
    have hmb : half.mb = 10 := rfl
    unfold Fmt.units
    rw [hm, hmb]
    by_cases he : halfExponent h = 0
    · rw [if_pos he, if_pos (by unfold halfExponent at he; omega)]
      congr 2
      unfold halfExponent at *
      omega
    · have h1 : ¬ h.toNat % 2 ^ 15 < 2 ^ 10 := by unfold halfExponent at he; omega
      rw [if_neg he, if_neg h1]
      have h2 : h.toNat % 2 ^ 15 % 2 ^ 10 = h.toNat % 2 ^ 10 := by omega
      have h3 : h.toNat % 2 ^ 15 / 2 ^ 10 = halfExponent h := by unfold halfExponent; omega
      rw [h2, h3]
      obtain ⟨k, hk⟩ := Nat.exists_eq_succ_of_ne_zero he
      rw [hk, Nat.succ_sub_one, Nat.succ_eq_add_one]
      push_cast
      field_simp
      ring

open Ieee in
/-- Half floats are shown exactly. -/
theorem C57_half (h : UInt16) (hf : halfExponent h ≠ 31) :
    Finite (conv.ofHalf h) ∧ value (conv.ofHalf h) = halfValue h := by
  have hfin := half_fin_iff h hf
  obtain ⟨a, ha, he, hu⟩ := half_to_single hfin
  obtain ⟨_, c2, c3⟩ := Fl.convert_exact (G := single) hfin a ha hu
  have e : conv.ofHalf h = toBits ((ofBits16 h).convert single) := by
    show ofHalf h = _
    unfold ofHalf
    simp only [hfin.not_nan, Bool.false_eq_true, if_false]
  rw [finite_iff, value_eq, halfValue_eq, e, c2.ofBits_toBits]
  exact ⟨c2, c3⟩

open Ieee in
/-- A byte `n` is shown as the float next to `n / 255`. -/
theorem C57_byte (n : UInt8) : Finite (conv.ofByte n) ∧ |value (conv.ofByte n) - n.toNat / 255| ≤ n.toNat / 255 / 2 ^ 24 := by
  obtain ⟨f255, v255⟩ := single_ofNat (n := 255) (by decide)
  have hn := n.toNat_lt
  obtain ⟨fr, vr⟩ := single_ofNat (n := n.toNat) (by omega)
  push_cast at v255
  have hq : (n.toNat : ℚ) < 256 := by exact_mod_cast hn
  have h0 : (0 : ℚ) ≤ n.toNat := by positivity
  have hd : |(Fl.ofNat n.toNat : Fl single).val / (Fl.ofNat 255 : Fl single).val| = n.toNat / 255 := by
    rw [vr, v255, abs_of_nonneg (by positivity)]
  have hlim : (255 : ℚ) < single.limit := lt_trans (by norm_num) single_limit_gt
  have hd1 : (n.toNat : ℚ) / 255 < single.limit := by
    rw [div_lt_iff₀ (by norm_num)]; linarith
  obtain ⟨fd, ed⟩ := Fl.div_error fr f255 (by rw [v255]; norm_num) (by rw [hd]; exact hd1) single_eb
  rw [finite_iff, value_eq]
  show (ofBits (ofByte n)).Fin ∧ |(ofBits (ofByte n)).val - _| ≤ _
  unfold ofByte
  rw [fd.ofBits_toBits]
  refine ⟨fd, ?_⟩
  rw [hd, vr, v255, single_eps, single_tiny, mul_one_div] at ed
  by_cases hz : n.toNat = 0
  · obtain ⟨f0, v0⟩ := single_ofNat (n := 0) (by decide)
    have := (Fl.div_exact (w := (Fl.ofNat 0 : Fl single)) f0 f255 f0 (by rw [v255]; norm_num) (by
      rw [v0]; push_cast; rw [zero_div])).2
    rw [hz, this, v0]
    norm_num
  · have h1 : (1 : ℚ) ≤ n.toNat := by exact_mod_cast Nat.pos_of_ne_zero hz
    refine ed.trans (max_le le_rfl ?_)
    have : (1 : ℚ) / 255 / 2 ^ 24 ≤ n.toNat / 255 / 2 ^ 24 := by gcongr
    refine le_trans ?_ this
    norm_num

example : halfExponent 0x3c00 ≠ 31 ∧ halfValue 0x3c00 = 1 := by
  refine ⟨by decide, ?_⟩
  norm_num [halfValue, halfExponent, show (0x3c00 : UInt16).toNat = 15360 from rfl]

/-! ## An example -/

/-- A file of version 1.10 with one triangle: positions of three floats in the first buffer, indices of two bytes after
four other bytes, and the weight of a vertex. -/
def triangleMesh : Mesh := .V10 {
  model_name := none
  bounding_info := ⟨⟨⟨0, 0, 0⟩, 0⟩, ⟨⟨0, 0, 0⟩, ⟨0, 0, 0⟩⟩, ⟨⟨0, 0, 0⟩, ⟨⟨0, 0, 0⟩, ⟨0, 0, 0⟩, ⟨0, 0, 0⟩⟩, ⟨0, 0, 0⟩⟩⟩
  unk1 := 0
  objects := [{
    name := some ⟨[0x61], by decide⟩, subindex := 1, parent_bone_name := none, vertex_count := 1
    vertex_index_count := 3, unk2 := 3, vertex_buffer0_offset := 1, vertex_buffer1_offset := 0
    vertex_buffer2_offset := 0, vertex_buffer3_offset := 0, stride0 := 13, stride1 := 0, stride2 := 0, stride3 := 0
    index_buffer_offset := 4, unk8 := 0, draw_element_type := .UnsignedShort, use_vertex_skinning := 0
    sort_bias := -1, depth_flags := ⟨1, 0⟩
    bounding_info := ⟨⟨⟨0, 0, 0⟩, 0⟩, ⟨⟨0, 0, 0⟩, ⟨0, 0, 0⟩⟩, ⟨⟨0, 0, 0⟩, ⟨⟨0, 0, 0⟩, ⟨0, 0, 0⟩, ⟨0, 0, 0⟩⟩, ⟨0, 0, 0⟩⟩⟩
    attributes := [⟨.Position, .Float3, 0, 1, 0, none, [some ⟨[0x50], by decide⟩]⟩] }]
  buffer_sizes := [14], polygon_index_size := 10
  vertex_buffers := [[9, 9, 1, 0, 0, 0, 2, 0, 0, 0, 3, 0, 0, 0]]
  index_buffer := [9, 9, 9, 9, 0, 0, 0, 1, 0, 0]
  rigging_buffers := [⟨some ⟨[0x61], by decide⟩, 1, ⟨1, 1⟩, [⟨some ⟨[0x62], by decide⟩, [0, 0, 7, 0, 0, 0]⟩]⟩] }

def triangleData : MeshData := ⟨1, 10, [{
  name := "a", subindex := 1, parent_bone_name := "", sort_bias := -1, disable_depth_write := true
  disable_depth_test := false, vertex_indices := [0, 256, 0]
  positions := [⟨"P", .Vector3 [#v[1, 2, 3]]⟩], normals := [], binormals := [], tangents := []
  texture_coordinates := [], color_sets := [], bone_influences := [⟨"b", [⟨0, 7⟩]⟩] }]⟩

example : ∃ bytes, readAs Mesh bytes = .ok triangleMesh ∧ MeshData.read Ieee.conv bytes = .ok triangleData ∧
    ShowsMesh Ieee.conv triangleData triangleMesh := by
  obtain ⟨bytes, h⟩ : ∃ b, liftWrite (writeAs triangleMesh) = .ok b := isOk_iff.mp (by decide +kernel)
  have hr := C01_format_round_trip triangleMesh bytes (liftWrite_ok.mp h)
  have hs : ShowsMesh Ieee.conv triangleData triangleMesh := (ofMesh_iff ..).mp (by decide +kernel)
  exact ⟨bytes, hr, (C57_layout _ bytes _ hr _).mpr hs, hs⟩

end Verif.Props
