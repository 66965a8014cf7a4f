import Verif.Data.MeshData
import Verif.Data.VectorDataLaws
import Verif.Data.TextLaws
/-!
# Laws of mesh data

What is read back from the buffers made by `createMeshObjects`, for the attribute layout of any version.
-/

namespace Verif
namespace MeshData

/-! ## Loops -/

theorem collect_append {f : α → Except ε β} {l₁ l₂ : List α} {r₁ r₂ : List β} (h₁ : collect f l₁ = .ok r₁)
    (h₂ : collect f l₂ = .ok r₂) : collect f (l₁ ++ l₂) = .ok (r₁ ++ r₂) := by
  induction l₁ generalizing r₁ with
  | nil =>
    simp only [collect, Except.ok.injEq] at h₁
    subst h₁
    exact h₂
  | cons x xs ih =>
    simp only [List.cons_append, collect] at h₁ ⊢
    split at h₁
    · cases h₁
    · rename_i y hy
      split at h₁
      · cases h₁
      · rename_i ys hys
        cases h₁
        rw [ih hys]
        rfl

theorem collect_map {f : α → Except ε β} {g : α → β} : ∀ {l : List α}, (∀ x ∈ l, f x = .ok (g x)) →
    collect f l = .ok (l.map g)
  | [], _ => rfl
  | x :: xs, h => by
    have ih : collect f xs = .ok (xs.map g) := collect_map (fun y hy => h y (List.mem_cons_of_mem _ hy))
    simp only [collect, h x (by simp), ih, List.map_cons]

theorem collect_ok {f : α → Except ε β} : ∀ {l : List α} {r : List β}, collect f l = .ok r →
    r.length = l.length ∧ ∀ (i : Nat) (x : α), l[i]? = some x → ∃ y, r[i]? = some y ∧ f x = .ok y
  | [], r, h => by simp only [collect, Except.ok.injEq] at h; subst h; simp
  | x :: xs, r, h => by
    simp only [collect] at h
    split at h
    · cases h
    · rename_i y hy
      split at h
      · cases h
      · rename_i ys hys
        cases h
        obtain ⟨h1, h2⟩ := collect_ok hys
        refine ⟨by simp [h1], ?_⟩
        intro i z hz
        cases i with
        | zero => simp at hz; subst hz; exact ⟨y, by simp, hy⟩
        | succ i => exact (by simpa using h2 i z (by simpa using hz))

theorem collect_error {f : α → Except ε β} : ∀ {l : List α}, (∃ e, collect f l = .error e) ↔ ∃ x ∈ l, ∃ e, f x = .error e
  | [] => by simp [collect]
  | x :: xs => by
    have ih := collect_error (f := f) (l := xs)
    simp only [collect, List.mem_cons, exists_eq_or_imp]
    cases hx : f x with
    | error e => simp
    | ok y =>
      rw [← ih]
      cases collect f xs with
      | error e => simp
      | ok ys => simp

/-- The lists have the same length and related entries. -/
def All2 (R : α → β → Prop) : List α → List β → Prop
  | [], [] => True
  | x :: xs, y :: ys => R x y ∧ All2 R xs ys
  | _, _ => False

theorem All2.imp {R S : α → β → Prop} (h : ∀ x y, R x y → S x y) : ∀ {xs : List α} {ys : List β}, All2 R xs ys →
    All2 S xs ys
  | [], [], _ => trivial
  | _ :: _, _ :: _, ⟨a, b⟩ => ⟨h _ _ a, b.imp h⟩

theorem All2.imp_mem {R S : α → β → Prop} : ∀ {xs : List α} {ys : List β}, (∀ x ∈ xs, ∀ y, R x y → S x y) →
    All2 R xs ys → All2 S xs ys
  | [], [], _, _ => trivial
  | x :: _, _ :: _, h, ⟨a, b⟩ => ⟨h x (by simp) _ a, b.imp_mem fun z hz => h z (by simp [hz])⟩

theorem All2.collect {f : β → Except ε γ} {g : α → γ} : ∀ {xs : List α} {ys : List β},
    All2 (fun x y => f y = .ok (g x)) xs ys → MeshData.collect f ys = .ok (xs.map g)
  | [], [], _ => rfl
  | x :: xs, y :: ys, ⟨a, b⟩ => by
    simp only [MeshData.collect, a, b.collect, List.map_cons]

/-! ## Attribute layouts -/

/-- An attribute in a buffer, seen from the reading side. -/
structure Item where
  usage : AttributeUsage
  name : String
  enc : VectorDataV10

def Item.size (it : Item) : Nat := it.enc.size
def Item.chunks (it : Item) : List Bytes := it.enc.chunks

/-- The attributes of buffer `b`. -/
def layout (b : Nat) : Nat → List Item → List (AttributeUsage × MeshAttribute)
  | _, [] => []
  | o, it :: rest => (it.usage, ⟨it.name, b, o % 2 ^ 32, it.enc.type⟩) :: layout b (o + it.size) rest

/-- The attribute list and buffer data describe the items. -/
structure Laid [Attribute A] (m : MeshAttributes A) (items0 items1 : List Item) : Prop where
  stride0 : m.buffer_info.b0.1.toNat = sizeSum Item.size items0 % 2 ^ 32
  stride1 : m.buffer_info.b1.1.toNat = sizeSum Item.size items1 % 2 ^ 32
  write0 : ∀ base w, writeBuffer m.buffer_info.b0 base w =
    writeColumns Item.chunks Item.size m.buffer_info.b0.1.toNat base items0 w
  write1 : ∀ base w, writeBuffer m.buffer_info.b1 base w =
    writeColumns Item.chunks Item.size m.buffer_info.b1.1.toNat base items1 w
  attributes : m.attributes.map (fun a => (Attribute.usage a, Attribute.toAttribute a)) =
    layout 0 0 items0 ++ layout 1 0 items1

section Create
variable {U V D A : Type} [Attribute A]

/-- What is needed of the functions of a version. -/
structure CreateLaws (mk : String → Nat → UInt32 → U → D → Nat → A) (dt : V → D) (sz : A → Nat)
    (conv : String × Nat × U × V → Item) : Prop where
  usage : ∀ name i b u v o, Attribute.usage (mk name i b u (dt v) o) = (conv (name, i, u, v)).usage
  toAttr : ∀ name i b u v o, Attribute.toAttribute (mk name i b u (dt v) o) =
    ⟨(conv (name, i, u, v)).name, b.toNat, o % 2 ^ 32, (conv (name, i, u, v)).enc.type⟩
  size : ∀ name i b u v o, sz (mk name i b u (dt v) o) = (conv (name, i, u, v)).size

variable {mk : String → Nat → UInt32 → U → D → Nat → A} {dt : V → D} {sz : A → Nat}
  {conv : String × Nat × U × V → Item}

theorem createBufferAttributes_layout (h : CreateLaws mk dt sz conv) (b : UInt32) : ∀ (o : Nat)
    (data : List (String × Nat × U × V)),
    ((createBufferAttributes mk dt sz b o data).map (·.1)).map
      (fun a => (Attribute.usage a, Attribute.toAttribute a)) = layout b.toNat o (data.map conv)
  | _, [] => rfl
  | o, (name, i, u, v) :: rest => by
    simp only [createBufferAttributes, List.map_cons, layout, h.usage, h.toAttr, h.size]
    rw [createBufferAttributes_layout h b]

theorem createBufferAttributes_sizes (h : CreateLaws mk dt sz conv) (b : UInt32) : ∀ (o : Nat)
    (data : List (String × Nat × U × V)),
    ((createBufferAttributes mk dt sz b o data).map fun x => sz x.1).sum = sizeSum Item.size (data.map conv)
  | _, [] => rfl
  | o, (name, i, u, v) :: rest => by
    have := createBufferAttributes_sizes h b (o + sz (mk name i b u (dt v) o)) rest
    simp only [createBufferAttributes, List.map_cons, List.sum_cons, sizeSum, h.size] at this ⊢
    rw [this]

omit [Attribute A] in
theorem createBufferAttributes_data (b : UInt32) : ∀ (o : Nat) (data : List (String × Nat × U × V)),
    (createBufferAttributes mk dt sz b o data).map (·.2) = data.map fun x => x.2.2.2
  | _, [] => rfl
  | o, (name, i, u, v) :: rest => by
    simp only [createBufferAttributes, List.map_cons]
    rw [createBufferAttributes_data b]

theorem writeAttributeData_columns {write : V → Nat → Nat → W → W} {size : V → Nat}
    (hw : ∀ x off st w, write x.2.2.2 off st w = writeChunks off st 0 (conv x).chunks w)
    (hs : ∀ x, size x.2.2.2 = (conv x).size) (stride : Nat) : ∀ (off : Nat) (data : List (String × Nat × U × V)) (w : W),
    writeAttributeData write size stride off (data.map fun x => x.2.2.2) w =
      writeColumns Item.chunks Item.size stride off (data.map conv) w
  | _, [], _ => rfl
  | off, x :: rest, w => by
    simp only [List.map_cons, writeAttributeData, writeColumns, hw, hs]
    exact writeAttributeData_columns hw hs stride _ rest _

/-- The layout of a version. -/
theorem laid_of (h : CreateLaws mk dt sz conv) {versioned : List V → VersionedVectorData}
    (hw : ∀ (s : UInt32) (data : List (String × Nat × U × V)) base w, writeBuffer (s, versioned (data.map fun x => x.2.2.2)) base w =
      writeColumns Item.chunks Item.size s.toNat base (data.map conv) w)
    (data0 data1 : List (String × Nat × U × V)) (use2 : Bool) :
    Laid (createAttributesFromData data0 data1 use2
      (fun data i => createBufferAttributes mk dt sz i 0 data) sz versioned) (data0.map conv) (data1.map conv) where
  stride0 := by simp only [createAttributesFromData, createBufferAttributes_sizes h, UInt32.toNat_ofNat']
  stride1 := by simp only [createAttributesFromData, createBufferAttributes_sizes h, UInt32.toNat_ofNat']
  write0 := by intro base w; simp only [createAttributesFromData, createBufferAttributes_data, hw]
  write1 := by intro base w; simp only [createAttributesFromData, createBufferAttributes_data, hw]
  attributes := by
    simp only [createAttributesFromData, List.map_append, createBufferAttributes_layout h]
    rfl

end Create

/-! ## Growing buffers -/

theorem writeEach_log (enc : α → Bytes) : ∀ (xs : List α) (w : W), ∃ N, (writeEach enc xs w).log = N ++ w.log
  | [], w => ⟨[], rfl⟩
  | x :: xs, w => by
    obtain ⟨N, h⟩ := writeEach_log enc xs (w.put (enc x))
    exact ⟨N ++ [.data w.pos (enc x)], by simp [writeEach, h]⟩

theorem writeEach_tidy (enc : α → Bytes) : ∀ (xs : List α) {w : W}, Tidy w → Tidy (writeEach enc xs w)
  | [], _, h => h
  | _ :: xs, _, h => writeEach_tidy enc xs (h.put _)

/-- Every element is found where it was written. -/
theorem writeEach_hasAt (enc : α → Bytes) {b : Bytes} : ∀ (xs : List α) (w : W),
    HasAll b (writeEach enc xs w).log → HasAt b w.pos (xs.flatMap enc)
  | [], w, _ => by intro i hi; simp at hi
  | x :: xs, w, h => by
    have h2 := writeEach_hasAt enc xs (w.put (enc x)) h
    obtain ⟨N, hN⟩ := writeEach_log enc xs (w.put (enc x))
    have h1 : HasAt b w.pos (enc x) := by
      apply h
      rw [writeEach, hN]
      simp
    intro i hi
    simp only [List.flatMap_cons]
    by_cases hx : i < (enc x).length
    · rw [List.getElem_append_left hx]
      exact h1 i hx
    · rw [List.getElem_append_right (by omega)]
      have h3 := h2 (i - (enc x).length) (by
        simp only [List.flatMap_cons, List.length_append] at hi; omega)
      rw [W.put_pos, show w.pos + (enc x).length + (i - (enc x).length) = w.pos + i by omega] at h3
      exact h3

theorem writeEach_length (enc : α → Bytes) : ∀ (xs : List α) (w : W), (∀ x, enc x ≠ []) → xs ≠ [] →
    ∀ M, w.pos + (xs.flatMap enc).length ≤ (render (M ++ (writeEach enc xs w).log)).length
  | [], w, _, h, _ => absurd rfl h
  | [x], w, hne, _, M => by
    simp only [writeEach, List.flatMap_cons, List.flatMap_nil, List.append_nil]
    exact le_render_length (List.mem_append_right M (by simp)) (hne x)
  | x :: y :: xs, w, hne, _, M => by
    have := writeEach_length enc (y :: xs) (w.put (enc x)) hne (by simp) M
    rw [writeEach]
    rw [W.put_pos] at this
    rw [List.flatMap_cons, List.length_append]
    omega

theorem writeVertexIndices_log (v : VertexIndices) (w : W) : ∃ N, (writeVertexIndices v w).log = N ++ w.log := by
  cases v <;> exact writeEach_log _ _ _

theorem writeVertexIndices_tidy (v : VertexIndices) {w : W} (h : Tidy w) : Tidy (writeVertexIndices v w) := by
  cases v <;> exact writeEach_tidy _ _ h

/-! ## Indices -/

theorem toU16s_some : ∀ {is : List UInt32} {v : List UInt16}, toU16s is = some v →
    v.map (fun x => x.toUInt32) = is ∧ ∀ i ∈ is, i.toNat < 2 ^ 16
  | [], v, h => by simp only [toU16s, Option.some.injEq] at h; subst h; simp
  | i :: is, v, h => by
    simp only [toU16s] at h
    split at h
    · rename_i hi
      simp only [Option.map_eq_some_iff] at h
      obtain ⟨r, hr, rfl⟩ := h
      obtain ⟨h1, h2⟩ := toU16s_some hr
      refine ⟨?_, ?_⟩
      · simp only [List.map_cons, h1, List.cons.injEq, and_true]
        apply UInt32.toNat_inj.mp
        simp only [UInt16.toNat_toUInt32, UInt32.toNat_toUInt16]
        exact Nat.mod_eq_of_lt hi
      · intro j hj
        simp only [List.mem_cons] at hj
        rcases hj with rfl | hj
        · exact hi
        · exact h2 j hj
    · cases h

theorem toU16s_none : ∀ {is : List UInt32}, toU16s is = none ↔ ∃ i ∈ is, 2 ^ 16 ≤ i.toNat
  | [] => by simp [toU16s]
  | i :: is => by
    have ih := toU16s_none (is := is)
    simp only [toU16s, List.mem_cons, exists_eq_or_imp]
    split
    · rename_i hi
      rw [Option.map_eq_none_iff, ih]
      constructor
      · exact .inr
      · rintro (h | h)
        · omega
        · exact h
    · rename_i hi
      simp only [true_iff]
      exact .inl (by omega)

/-- Reading the indices of an object whose index data is in the buffer. -/
theorem readVertexIndices_back {o : Mesh.MeshObject A} {is : List UInt32} {w : W} {b : Bytes} {M : List Ev}
    (hL : (render (M ++ (writeVertexIndices (convertIndices is) w).log)).length < 2 ^ 32)
    (hb : HasAll b (writeVertexIndices (convertIndices is) w).log)
    (ht : o.draw_element_type = match convertIndices is with
      | .UnsignedInt _ => .UnsignedInt
      | .UnsignedShort _ => .UnsignedShort)
    (hc : o.vertex_index_count = UInt32.ofNat is.length) (ho : o.index_buffer_offset = UInt32.ofNat w.pos) :
    readVertexIndices b o = .ok is := by
  have key : ∀ {β : Type} (c : Codec β) (enc : β → Bytes) (k : Nat) (f : β → UInt32) (xs : List β),
      ReadsBack c enc k → 0 < k → xs.map f = is → HasAll b (writeEach enc xs w).log →
      (render (M ++ (writeEach enc xs w).log)).length < 2 ^ 32 →
      readData c f b o.vertex_index_count.toNat o.index_buffer_offset.toNat = .ok is := by
    intro β c enc k f xs hrb hk hxs hall hlen
    have hl : is.length = xs.length := by rw [← hxs]; simp
    by_cases hnil : xs = []
    · subst hnil
      have : is = [] := by rw [← hxs]; rfl
      subst this
      have h0 : o.vertex_index_count.toNat = 0 := by rw [hc]; rfl
      simp [readData, h0, readElems]
    · have hne : ∀ x, enc x ≠ [] := by
        intro x hx
        have := hrb.length x
        rw [hx] at this
        simp at this; omega
      have h1 := writeEach_length enc xs w hne hnil M
      have h2 : (xs.flatMap enc).length = xs.length * k := by
        clear hxs hall hlen hl hnil h1
        induction xs with
        | nil => simp
        | cons x xs ih => simp [List.flatMap_cons, hrb.length, ih, Nat.add_mul, Nat.add_comm]
      have h3 : xs.length ≤ xs.length * k := Nat.le_mul_of_pos_right _ hk
      have hcount : o.vertex_index_count.toNat = xs.length := by
        rw [hc, UInt32.toNat_ofNat', hl]
        exact Nat.mod_eq_of_lt (by omega)
      have hoff : o.index_buffer_offset.toNat = w.pos := by
        rw [ho, UInt32.toNat_ofNat']
        exact Nat.mod_eq_of_lt (by omega)
      simp only [readData, hcount, hoff]
      rw [readElems_back hrb xs b w.pos (writeEach_hasAt enc xs w hall)]
      simp only [hxs]
  simp only [convertIndices] at ht hb hL
  cases h16 : toU16s is with
  | some v =>
    simp only [h16] at ht hb hL
    simp only [readVertexIndices, ht, if_true]
    exact key u16 encF16 2 _ v u16_readsBack (by omega) (toU16s_some h16).1 hb hL
  | none =>
    simp only [h16] at ht hb hL
    simp only [readVertexIndices, ht]
    rw [if_neg (by decide)]
    exact key u32 _ 4 _ is u32_readsBack (by omega) (by simp) hb hL

/-! ## Objects -/

/-- The lengths which `vertex_count` looks at. -/
def MeshObjectData.lengths (o : MeshObjectData) : List Nat :=
  (o.positions.map fun a => a.data.len) ++ (o.normals.map fun a => a.data.len)
    ++ (o.binormals.map fun a => a.data.len) ++ (o.tangents.map fun a => a.data.len)
    ++ (o.texture_coordinates.map fun a => a.data.len) ++ (o.color_sets.map fun a => a.data.len)

theorem vertexCount_ok {o : MeshObjectData} {n : Nat} :
    o.vertexCount = .ok n ↔ (∀ l ∈ o.lengths, l = n) ∧ (o.lengths = [] → n = 0) := by
  show (match o.lengths with
    | [] => Except.ok 0
    | size :: rest => if rest.all (· == size) then .ok size else .error MeshErr.attributeDataLengthMismatch) = .ok n ↔ _
  cases hl : o.lengths with
  | nil => simp; exact eq_comm
  | cons size rest =>
    simp only [List.mem_cons, forall_eq_or_imp, reduceCtorEq, false_implies, and_true]
    split
    · rename_i h
      simp only [List.all_eq_true, beq_iff_eq] at h
      simp only [Except.ok.injEq]
      constructor
      · rintro rfl; exact ⟨rfl, h⟩
      · exact fun h => h.1
    · rename_i h
      simp only [List.all_eq_true, beq_iff_eq] at h
      simp only [reduceCtorEq, false_iff, not_and]
      rintro rfl
      exact h

theorem vertexCount_error {o : MeshObjectData} {e : MeshErr} (h : o.vertexCount = .error e) :
    e = .attributeDataLengthMismatch := by
  simp only [MeshObjectData.vertexCount] at h
  split at h
  · cases h
  · split at h
    · cases h
    · cases h; rfl

theorem maxIndex_spec : ∀ {is : List UInt32} {m : UInt32}, maxIndex is = some m → m ∈ is ∧ ∀ i ∈ is, i.toNat ≤ m.toNat
  | [], m, h => by simp [maxIndex] at h
  | i :: is, m, h => by
    simp only [maxIndex] at h
    split at h
    · rename_i hn
      cases h
      have : is = [] := by
        cases is with
        | nil => rfl
        | cons j js =>
          simp only [maxIndex] at hn
          split at hn
          · cases hn
          · split at hn <;> cases hn
      subst this
      simp
    · rename_i j hj
      obtain ⟨h1, h2⟩ := maxIndex_spec hj
      split at h
      · rename_i hle
        cases h
        refine ⟨List.mem_cons_of_mem _ h1, ?_⟩
        intro k hk
        simp only [List.mem_cons] at hk
        rcases hk with rfl | hk
        · exact hle
        · exact h2 k hk
      · rename_i hle
        cases h
        refine ⟨by simp, ?_⟩
        intro k hk
        simp only [List.mem_cons] at hk
        rcases hk with rfl | hk
        · exact Nat.le_refl _
        · have := h2 k hk; omega

theorem maxIndex_none : ∀ {is : List UInt32}, maxIndex is = none ↔ is = []
  | [] => by simp [maxIndex]
  | i :: is => by
    simp only [maxIndex, reduceCtorEq, iff_false]
    split
    · simp
    · split <;> simp

/-- The check of the indices. -/
theorem maxIndex_filter {is : List UInt32} {n : Nat} :
    (maxIndex is).filter (fun i => i.toNat ≥ n) = none ↔ ∀ i ∈ is, i.toNat < n := by
  cases h : maxIndex is with
  | none =>
    rw [maxIndex_none] at h
    subst h
    simp
  | some m =>
    obtain ⟨h1, h2⟩ := maxIndex_spec h
    simp only [Option.filter, decide_eq_true_eq]
    split
    · rename_i hm
      simp only [reduceCtorEq, false_iff]
      intro hall
      have := hall m h1
      omega
    · rename_i hm
      simp only [true_iff]
      intro i hi
      have := h2 i hi
      omega

section Objects
variable {A : Type} [Attribute A]

/-- What an object says about the data it was made from. -/
structure Fields (data : MeshObjectData) (o : Mesh.MeshObject A) : Prop where
  name : o.name = ssbhText data.name
  subindex : o.subindex = data.subindex
  parent : o.parent_bone_name = ssbhText data.parent_bone_name
  sort_bias : o.sort_bias = data.sort_bias
  depth_write : o.depth_flags.disable_depth_write = if data.disable_depth_write then 1 else 0
  depth_test : o.depth_flags.disable_depth_test = if data.disable_depth_test then 1 else 0

/-- The buffers contain everything written so far. -/
structure Contains (b0 b1 ib : Bytes) (s : BufferState) : Prop where
  h0 : HasAll b0 s.buffers.b0.log
  h1 : HasAll b1 s.buffers.b1.log
  hi : HasAll ib s.indexBuffer.log

/-- The events of `s` are the oldest events of `t`. -/
structure Grows (s t : BufferState) : Prop where
  h0 : ∃ N, t.buffers.b0.log = N ++ s.buffers.b0.log
  h1 : ∃ N, t.buffers.b1.log = N ++ s.buffers.b1.log
  hi : ∃ N, t.indexBuffer.log = N ++ s.indexBuffer.log

theorem Grows.refl (s : BufferState) : Grows s s := ⟨⟨[], rfl⟩, ⟨[], rfl⟩, ⟨[], rfl⟩⟩

theorem Grows.trans {s t u : BufferState} (h : Grows s t) (k : Grows t u) : Grows s u := by
  obtain ⟨⟨a, ha⟩, ⟨b, hb⟩, ⟨c, hc⟩⟩ := h
  obtain ⟨⟨a', ha'⟩, ⟨b', hb'⟩, ⟨c', hc'⟩⟩ := k
  exact ⟨⟨a' ++ a, by rw [ha', ha, List.append_assoc]⟩, ⟨b' ++ b, by rw [hb', hb, List.append_assoc]⟩,
    ⟨c' ++ c, by rw [hc', hc, List.append_assoc]⟩⟩

theorem Contains.mono {b0 b1 ib : Bytes} {s t : BufferState} (h : Contains b0 b1 ib t) (g : Grows s t) :
    Contains b0 b1 ib s := by
  obtain ⟨⟨a, ha⟩, ⟨b, hb⟩, ⟨c, hc⟩⟩ := g
  obtain ⟨h0, h1, hi⟩ := h
  rw [ha] at h0
  rw [hb] at h1
  rw [hc] at hi
  exact ⟨h0.right, h1.right, hi.right⟩

structure TidyAll (s : BufferState) : Prop where
  h0 : Tidy s.buffers.b0
  h1 : Tidy s.buffers.b1
  hi : Tidy s.indexBuffer

/-- The attributes which are read for a usage. -/
def readBack (F : FloatConv) (items : List Item) (u : AttributeUsage) : List AttributeData :=
  (items.filter fun it => it.usage = u).map fun it => ⟨it.name, it.enc.decode F⟩

omit [Attribute A] in
/-- The two sides of a successful `createMeshObject`. -/
theorem createMeshObject_ok {bounds : List (Vector F32 3) → Mesh.BoundingInfo} {ca : MeshObjectData → MeshAttributes A}
    {data : MeshObjectData} {s s' : BufferState} {o : Mesh.MeshObject A}
    (h : createMeshObject bounds ca data s = .ok (o, s')) :
    data.vertex_indices.length % 3 = 0 ∧ ∃ n, data.vertexCount = .ok n ∧ (∀ i ∈ data.vertex_indices, i.toNat < n) ∧
    Fields data o ∧ o.attributes = (ca data).attributes ∧ o.vertex_count = UInt32.ofNat n ∧
    o.vertex_buffer0_offset = UInt32.ofNat s.buffers.b0.pos ∧ o.vertex_buffer1_offset = UInt32.ofNat s.buffers.b1.pos ∧
    o.stride0 = (ca data).buffer_info.b0.1 ∧ o.stride1 = (ca data).buffer_info.b1.1 ∧
    o.vertex_index_count = UInt32.ofNat data.vertex_indices.length ∧
    o.index_buffer_offset = UInt32.ofNat s.indexBuffer.pos ∧
    (o.draw_element_type = match convertIndices data.vertex_indices with
      | .UnsignedInt _ => .UnsignedInt
      | .UnsignedShort _ => .UnsignedShort) ∧
    s'.buffers.b0 = writeBuffer (ca data).buffer_info.b0 s.buffers.b0.pos s.buffers.b0 ∧
    s'.buffers.b1 = writeBuffer (ca data).buffer_info.b1 s.buffers.b1.pos s.buffers.b1 ∧
    s'.indexBuffer = writeVertexIndices (convertIndices data.vertex_indices) s.indexBuffer := by
  simp only [createMeshObject] at h
  split at h
  · cases h
  rename_i h3
  split at h
  · cases h
  rename_i n hn
  split at h
  · cases h
  rename_i hm
  cases h
  refine ⟨by omega, n, hn, maxIndex_filter.mp hm, ⟨rfl, rfl, rfl, rfl, rfl, rfl⟩, rfl, rfl, rfl, rfl, rfl, rfl, rfl, rfl, rfl,
    ?_, ?_, rfl⟩
  · by_cases hu : (ca data).use_buffer2 = true <;> simp [hu, writeAttributes]
  · by_cases hu : (ca data).use_buffer2 = true <;> simp [hu, writeAttributes]

theorem writeColumns_grow (chunks : V → List Bytes) (size : V → Nat) (stride base : Nat) (ds : List V) (w : W) :
    ∃ N, (writeColumns chunks size stride base ds w).log = N ++ w.log := by
  obtain ⟨N, h, -⟩ := writeColumns_log chunks size stride base 0 ds w
  exact ⟨N, h⟩

omit [Attribute A] in
/-- Reading the attributes of one buffer. -/
theorem readLayout {F : FloatConv} {buffers : List Bytes} {o : Mesh.MeshObject A} {b : Nat} {u : AttributeUsage} :
    ∀ (off : Nat) (items : List Item),
    (∀ q it, (q, it) ∈ placesFrom Item.size off items →
      readAttributeData F buffers o ⟨it.name, b, q % 2 ^ 32, it.enc.type⟩ = .ok (it.enc.decode F)) →
    collect (fun a => (readAttributeData F buffers o a).map fun d => (⟨a.name, d⟩ : AttributeData))
      (((layout b off items).filter fun x => x.1 = u).map (·.2)) = .ok (readBack F items u)
  | _, [], _ => rfl
  | off, it :: rest, h => by
    have h0 := h off it (by simp [placesFrom])
    have ih := readLayout (F := F) (buffers := buffers) (o := o) (b := b) (u := u) (off + it.size) rest
      (fun q x hx => h q x (by rw [placesFrom]; exact List.mem_cons_of_mem _ hx))
    simp only [layout, readBack, List.filter_cons] at ih ⊢
    split
    · rename_i hu
      simp only [List.map_cons, collect, h0, Except.map]
      rw [show ((layout b (off + it.size) rest).filter fun x => decide (x.1 = u)).map (·.2) =
        ((layout b (off + it.size) rest).filter fun x => decide (x.1 = u)).map (·.2) from rfl]
      simp only [Except.map] at ih
      rw [ih]
    · exact ih

/-- One object: its attributes and indices can be read from any buffers which contain what was written, when the
buffers in the end (`t`) are shorter than 4 GiB. -/
theorem createMeshObject_reads {F : FloatConv} {bounds : List (Vector F32 3) → Mesh.BoundingInfo}
    {ca : MeshObjectData → MeshAttributes A} {data : MeshObjectData} {s s' t : BufferState} {o : Mesh.MeshObject A}
    (h : createMeshObject bounds ca data s = .ok (o, s')) {items0 items1 : List Item}
    (hl : Laid (ca data) items0 items1)
    (hlen : ∀ it ∈ items0 ++ items1, it.enc.chunks.length ∈ data.lengths)
    (ht : TidyAll s) (hg : Grows s' t)
    (hL0 : t.buffers.b0.buf.length < 2 ^ 32) (hL1 : t.buffers.b1.buf.length < 2 ^ 32)
    (hLi : t.indexBuffer.buf.length < 2 ^ 32) :
    TidyAll s' ∧ ∀ b0 b1 b2 b3 ib, Contains b0 b1 ib s' →
      readVertexIndices ib o = .ok data.vertex_indices ∧
      ∀ u, readAttributes F [b0, b1, b2, b3] o u = .ok (readBack F (items0 ++ items1) u) := by
  obtain ⟨-, n, hn, -, -, hattr, hvc, hoff0, hoff1, hst0, hst1, hic, hio, hdt, hb0, hb1, hbi⟩ := createMeshObject_ok h
  obtain ⟨⟨M0, hM0⟩, ⟨M1, hM1⟩, ⟨Mi, hMi⟩⟩ := hg
  have hcount : ∀ it ∈ items0 ++ items1, it.enc.chunks.length = n := fun it hit =>
    (vertexCount_ok.mp hn).1 _ (hlen it hit)
  rw [hl.write0] at hb0
  rw [hl.write1] at hb1
  have hL0' : (render (M0 ++ (writeColumns Item.chunks Item.size (ca data).buffer_info.b0.1.toNat s.buffers.b0.pos items0
      s.buffers.b0).log)).length < 2 ^ 32 := by
    rw [← hb0, ← hM0]; exact hL0
  have hL1' : (render (M1 ++ (writeColumns Item.chunks Item.size (ca data).buffer_info.b1.1.toNat s.buffers.b1.pos items1
      s.buffers.b1).log)).length < 2 ^ 32 := by
    rw [← hb1, ← hM1]; exact hL1
  have hLi' : (render (Mi ++ (writeVertexIndices (convertIndices data.vertex_indices) s.indexBuffer).log)).length
      < 2 ^ 32 := by
    rw [← hbi, ← hMi]; exact hLi
  obtain ⟨t0, -, -, r0, p0⟩ := ht.h0.columns (chunks := Item.chunks) (size := Item.size)
    (fun d => d.enc.chunk_length) (fun d => d.enc.size_pos) (ds := items0) (n := n)
    (fun d hd => hcount d (List.mem_append_left _ hd)) hl.stride0 hL0'
  obtain ⟨t1, -, -, r1, p1⟩ := ht.h1.columns (chunks := Item.chunks) (size := Item.size)
    (fun d => d.enc.chunk_length) (fun d => d.enc.size_pos) (ds := items1) (n := n)
    (fun d hd => hcount d (List.mem_append_right _ hd)) hl.stride1 hL1'
  refine ⟨⟨hb0 ▸ t0, hb1 ▸ t1, hbi ▸ writeVertexIndices_tidy _ ht.hi⟩, ?_⟩
  intro b0 b1 b2 b3 ib hc
  have hc0 := hc.h0
  have hc1 := hc.h1
  have hci := hc.hi
  rw [hb0] at hc0
  rw [hb1] at hc1
  rw [hbi] at hci
  refine ⟨readVertexIndices_back hLi' hci hdt hic hio, ?_⟩
  intro u
  -- one attribute, in either buffer
  have one : ∀ (buf : Bytes) (base q L : Nat) (it : Item) (items : List Item) (stride : Nat) (log : List Ev),
      HasAll buf log → (q, it) ∈ placesFrom Item.size 0 items → it.enc.chunks.length = n →
      (0 < n → items ≠ [] → stride = sizeSum Item.size items ∧ 0 < stride ∧ base + n * stride ≤ L) → L < 2 ^ 32 →
      (∀ q d i c, (q, d) ∈ placesFrom Item.size 0 items → (Item.chunks d)[i]? = some c →
        Ev.data (base + q + i * stride) c ∈ log) →
      VectorData.read F buf (UInt32.ofNat n).toNat (q % 2 ^ 32 + (UInt32.ofNat base).toNat) stride it.enc.type
        = .ok (it.enc.decode F) := by
    intro buf base q L it items stride log hall hm hlen1 hr hL hp
    by_cases h0 : 0 < n
    · obtain ⟨e1, e2, e3⟩ := hr h0 (by rintro rfl; simp [placesFrom] at hm)
      have hq := (placesFrom_le hm).2
      have hsz : 0 < Item.size it := it.enc.size_pos
      have h1 : n ≤ n * stride := Nat.le_mul_of_pos_right _ e2
      have h2 : stride ≤ n * stride := Nat.le_mul_of_pos_left _ h0
      have en : (UInt32.ofNat n).toNat = n := by
        rw [UInt32.toNat_ofNat']; exact Nat.mod_eq_of_lt (by omega)
      have eb : (UInt32.ofNat base).toNat = base := by
        rw [UInt32.toNat_ofNat']; exact Nat.mod_eq_of_lt (by omega)
      have eq : q % 2 ^ 32 = q := Nat.mod_eq_of_lt (by omega)
      rw [en, eb, eq, ← hlen1]
      apply it.enc.read_back F buf _ stride (fun _ => e2)
      intro i c hic
      have := hall _ _ (hp q it i c hm hic)
      rwa [Nat.add_comm base q] at this
    · have hz : n = 0 := by omega
      rw [show (UInt32.ofNat n).toNat = it.enc.chunks.length by rw [hlen1, hz]; rfl]
      apply it.enc.read_back F buf _ stride (fun hh => by omega)
      intro i c hic
      rw [List.length_eq_zero_iff.mp (hlen1.trans hz)] at hic
      simp at hic
  have hattrs : getAttributes o u =
      (((layout 0 0 items0).filter fun x => x.1 = u).map (·.2)) ++ (((layout 1 0 items1).filter fun x => x.1 = u).map (·.2)) := by
    rw [getAttributes, hattr]
    have := congrArg (fun l => (l.filter fun x => decide (x.1 = u)).map (·.2)) hl.attributes
    simp only [List.filter_append, List.map_append, List.filter_map, List.map_map] at this
    rw [← this]
    rfl
  rw [readAttributes, hattrs]
  have hrb : readBack F (items0 ++ items1) u = readBack F items0 u ++ readBack F items1 u := by
    simp [readBack, List.filter_append]
  rw [hrb]
  apply collect_append
  · apply readLayout
    intro q it hm
    simp only [readAttributeData, calculateOffsetStride, List.getElem?_cons_zero, hvc, hoff0, hst0]
    exact one b0 s.buffers.b0.pos q _ it items0 _ _ hc0 hm
      (hcount it (List.mem_append_left _ (placesFrom_mem hm))) r0 hL0' p0
  · apply readLayout
    intro q it hm
    simp only [readAttributeData, calculateOffsetStride, List.getElem?_cons_succ, List.getElem?_cons_zero, hvc, hoff1, hst1]
    exact one b1 s.buffers.b1.pos q _ it items1 _ _ hc1 hm
      (hcount it (List.mem_append_right _ (placesFrom_mem hm))) r1 hL1' p1

theorem createMeshObject_grows {bounds : List (Vector F32 3) → Mesh.BoundingInfo}
    {ca : MeshObjectData → MeshAttributes A} {data : MeshObjectData} {s s' : BufferState} {o : Mesh.MeshObject A}
    (h : createMeshObject bounds ca data s = .ok (o, s')) {items0 items1 : List Item}
    (hl : Laid (ca data) items0 items1) : Grows s s' := by
  obtain ⟨-, n, -, -, -, -, -, -, -, -, -, -, -, -, hb0, hb1, hbi⟩ := createMeshObject_ok h
  refine ⟨?_, ?_, ?_⟩
  · rw [hb0, hl.write0]; exact writeColumns_grow _ _ _ _ _ _
  · rw [hb1, hl.write1]; exact writeColumns_grow _ _ _ _ _ _
  · rw [hbi]; exact writeVertexIndices_log _ _

theorem createMeshObjectsFrom_grows {bounds : List (Vector F32 3) → Mesh.BoundingInfo}
    {ca : MeshObjectData → MeshAttributes A} {items0 items1 : MeshObjectData → List Item}
    (hl : ∀ data, Laid (ca data) (items0 data) (items1 data)) : ∀ {objects : List MeshObjectData} {s s' : BufferState}
    {os : List (Mesh.MeshObject A)}, createMeshObjectsFrom bounds ca objects s = .ok (os, s') → Grows s s'
  | [], s, s', os, h => by cases h; exact .refl s
  | data :: rest, s, s', os, h => by
    simp only [createMeshObjectsFrom] at h
    split at h
    · cases h
    rename_i o s1 ho
    split at h
    · cases h
    rename_i os2 s2 hos
    cases h
    exact (createMeshObject_grows ho (hl data)).trans (createMeshObjectsFrom_grows hl hos)

/-- All objects. -/
theorem createMeshObjectsFrom_reads {F : FloatConv} {bounds : List (Vector F32 3) → Mesh.BoundingInfo}
    {ca : MeshObjectData → MeshAttributes A} {items0 items1 : MeshObjectData → List Item}
    (hl : ∀ data, Laid (ca data) (items0 data) (items1 data))
    (hlen : ∀ data, ∀ it ∈ items0 data ++ items1 data, it.enc.chunks.length ∈ data.lengths) :
    ∀ {objects : List MeshObjectData} {s t : BufferState} {os : List (Mesh.MeshObject A)},
    createMeshObjectsFrom bounds ca objects s = .ok (os, t) → TidyAll s →
    t.buffers.b0.buf.length < 2 ^ 32 → t.buffers.b1.buf.length < 2 ^ 32 → t.indexBuffer.buf.length < 2 ^ 32 →
    TidyAll t ∧ All2 (fun data o => Fields data o ∧ data.vertex_indices.length % 3 = 0 ∧
      (∃ n, data.vertexCount = .ok n ∧ ∀ i ∈ data.vertex_indices, i.toNat < n) ∧
      ∀ b0 b1 b2 b3 ib, Contains b0 b1 ib t →
        readVertexIndices ib o = .ok data.vertex_indices ∧
        ∀ u, readAttributes F [b0, b1, b2, b3] o u = .ok (readBack F (items0 data ++ items1 data) u)) objects os
  | [], s, t, os, h, ht, _, _, _ => by cases h; exact ⟨ht, trivial⟩
  | data :: rest, s, t, os, h, ht, hL0, hL1, hLi => by
    simp only [createMeshObjectsFrom] at h
    split at h
    · cases h
    rename_i o s1 ho
    split at h
    · cases h
    rename_i os2 s2 hos
    cases h
    have hg := createMeshObjectsFrom_grows hl hos
    obtain ⟨ht1, hr⟩ := createMeshObject_reads (F := F) ho (hl data) (hlen data) ht hg hL0 hL1 hLi
    obtain ⟨ht2, hall⟩ := createMeshObjectsFrom_reads hl hlen hos ht1 hL0 hL1 hLi
    obtain ⟨h3, n, hn, hi, hf, -⟩ := createMeshObject_ok ho
    exact ⟨ht2, ⟨hf, h3, ⟨n, hn, hi⟩, fun b0 b1 b2 b3 ib hc => hr b0 b1 b2 b3 ib (hc.mono hg)⟩, hall⟩

end Objects
end MeshData
end Verif
