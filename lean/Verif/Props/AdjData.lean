import Verif.Data.AdjData
/-!
# AdjData: C18, C19
-/

namespace Verif.Props
open Verif

/-! ## C18 -/

/-- The number of indices of all entries. -/
def adjTotal (es : List AdjEntryData) : Nat := (es.map (·.vertex_adjacency.length)).sum

theorem readEntries_scan (es : List AdjEntryData) : ∀ (pre : List Int16),
    (∀ e ∈ es, e.mesh_object_index < 2 ^ 32) →
    (∀ p e q, es = p ++ e :: q → 2 * (pre.length + adjTotal p) < 2 ^ 32) →
    AdjData.readEntries (pre ++ es.flatMap (·.vertex_adjacency)) (AdjData.scanEntries (pre.length * 2) es) = .ok es := by
  induction es with
  | nil => intro pre _ _; rfl
  | cons e es ih =>
    intro pre hi ho
    have h0 := ho [] e es rfl
    simp only [adjTotal, List.map_nil, List.sum_nil, Nat.add_zero] at h0
    have hoff : AdjData.offsetToIndex (UInt32.ofNat (pre.length * 2)) = pre.length := by
      simp only [AdjData.offsetToIndex, UInt32.toNat_ofNat']
      omega
    have hidx : (UInt32.ofNat e.mesh_object_index).toNat = e.mesh_object_index := by
      have := hi e (by simp)
      simp only [UInt32.toNat_ofNat']
      omega
    cases es with
    | nil =>
      simp only [AdjData.scanEntries, AdjData.readEntries, hoff, hidx, AdjData.sliceGetFrom, List.flatMap_cons,
        List.flatMap_nil, List.append_nil, List.length_append, Nat.le_add_right, if_true, List.drop_left]
    | cons e' es =>
      have h1 := ho [e] e' es rfl
      simp only [adjTotal, List.map_cons, List.map_nil, List.sum_cons, List.sum_nil, Nat.add_zero] at h1
      have hoff2 : AdjData.offsetToIndex (UInt32.ofNat (pre.length * 2 + e.vertex_adjacency.length * 2)) =
          pre.length + e.vertex_adjacency.length := by
        simp only [AdjData.offsetToIndex, UInt32.toNat_ofNat']
        omega
      have := ih (pre ++ e.vertex_adjacency) (fun x hx => hi x (by simp [hx])) (by
        intro p x q hpq
        have := ho (e :: p) x q (by rw [hpq]; rfl)
        simp only [adjTotal, List.map_cons, List.sum_cons, List.length_append] at this ⊢
        omega)
      rw [List.length_append, Nat.add_mul] at this
      simp only [AdjData.scanEntries] at this
      simp only [AdjData.scanEntries, AdjData.readEntries, hoff, hoff2, hidx, AdjData.sliceGet]
      rw [if_pos (by simp only [List.length_append, List.flatMap_cons]; omega)]
      simp only
      rw [List.flatMap_cons, ← List.append_assoc, this]
      simp

/-- C18: converting to the file type and back is the identity if the object indices and the byte offsets of the
entries fit in 32 bits. -/
theorem C18_identity (d : AdjData) (hi : ∀ e ∈ d.entries, e.mesh_object_index < 2 ^ 32)
    (ho : ∀ p e q, d.entries = p ++ e :: q → 2 * adjTotal p < 2 ^ 32) : AdjData.ofAdj d.toAdj = .ok d := by
  have := readEntries_scan d.entries [] hi (by simpa using ho)
  simp only [List.nil_append, List.length_nil, Nat.zero_mul] at this
  simp only [AdjData.ofAdj, AdjData.toAdj, this]

def exAdjData : AdjData := ⟨[⟨3, [1, 2, -1]⟩, ⟨4, []⟩, ⟨5, [7, 7]⟩]⟩

example : AdjData.ofAdj exAdjData.toAdj = .ok exAdjData := by
  refine C18_identity _ (by decide) ?_
  intro p e q h
  have h1 : adjTotal exAdjData.entries = 5 := rfl
  rw [h] at h1
  simp only [adjTotal, List.map_append, List.sum_append, List.map_cons, List.sum_cons] at h1 ⊢
  omega

/-- The first index and the end of the range of entry `i`: from its offset to the offset of the next entry, or to
the end of the buffer for the last one. -/
def adjStart (a : Adj) (i : Nat) : Nat := ((a.entries[i]?.map (·.index_buffer_offset.toNat)).getD 0) / 2
def adjStop (a : Adj) (i : Nat) : Nat :=
  match a.entries[i + 1]? with
  | some e => e.index_buffer_offset.toNat / 2
  | none => a.index_buffer.length

/-- The range of entry `i` is not reversed and is contained in the buffer. -/
def adjRangeOk (a : Adj) (i : Nat) : Prop := adjStart a i ≤ adjStop a i ∧ adjStop a i ≤ a.index_buffer.length

/-- What entry `i` should be converted to. -/
def adjSlice (a : Adj) (i : Nat) (x : AdjEntryData) : Prop :=
  (a.entries[i]?.map (·.mesh_object_index.toNat)) = some x.mesh_object_index ∧
  x.vertex_adjacency = (a.index_buffer.take (adjStop a i)).drop (adjStart a i)

theorem readEntries_spec (buf : List Int16) : ∀ es : List Adj.AdjEntry,
    (∀ r, AdjData.readEntries buf es = .ok r → r.length = es.length ∧
      ∀ i x, r[i]? = some x → adjRangeOk ⟨es, buf⟩ i ∧ adjSlice ⟨es, buf⟩ i x) ∧
    (∀ err, AdjData.readEntries buf es = .error err → ∃ i, i < es.length ∧ ¬ adjRangeOk ⟨es, buf⟩ i ∧
      (∀ j, j < i → adjRangeOk ⟨es, buf⟩ j) ∧ ∃ s t n, err = .bufferOffsetOutOfRange s t n)
  | [] => by
    constructor
    · rintro r h; cases h; exact ⟨rfl, by simp⟩
    · rintro r h; cases h
  | [e] => by
    by_cases hr : adjRangeOk ⟨[e], buf⟩ 0
    · have he : AdjData.readEntries buf [e] = .ok [⟨e.mesh_object_index.toNat, buf.drop (e.index_buffer_offset.toNat / 2)⟩] := by
        simp only [AdjData.readEntries, AdjData.sliceGetFrom]
        rw [if_pos (show AdjData.offsetToIndex e.index_buffer_offset ≤ buf.length from hr.1)]
        rfl
      rw [he]
      constructor
      · rintro r h; cases h
        refine ⟨rfl, ?_⟩
        intro i x hx
        cases i with
        | zero =>
          simp only [List.getElem?_cons_zero, Option.some.injEq] at hx
          subst hx
          refine ⟨hr, rfl, ?_⟩
          simp [adjStart, adjStop]
        | succ i => simp at hx
      · intro err h; cases h
    · have he : AdjData.readEntries buf [e] = .error (.bufferOffsetOutOfRange e.index_buffer_offset.toNat (buf.length * 2) (buf.length * 2)) := by
        simp only [AdjData.readEntries, AdjData.sliceGetFrom]
        rw [if_neg (show ¬ AdjData.offsetToIndex e.index_buffer_offset ≤ buf.length from fun h => hr ⟨h, Nat.le_refl _⟩)]
      rw [he]
      constructor
      · intro r h; cases h
      · intro err h; cases h
        exact ⟨0, by simp, hr, by simp, _, _, _, rfl⟩
  | e :: e' :: es => by
    obtain ⟨ih1, ih2⟩ := readEntries_spec buf (e' :: es)
    by_cases hr : adjRangeOk ⟨e :: e' :: es, buf⟩ 0
    rotate_left
    · have he : AdjData.readEntries buf (e :: e' :: es) = .error (.bufferOffsetOutOfRange e.index_buffer_offset.toNat
          e'.index_buffer_offset.toNat (buf.length * 2)) := by
        simp only [AdjData.readEntries, AdjData.sliceGet]
        rw [if_neg (show ¬ (AdjData.offsetToIndex e.index_buffer_offset ≤ AdjData.offsetToIndex e'.index_buffer_offset ∧
          AdjData.offsetToIndex e'.index_buffer_offset ≤ buf.length) from hr)]
      rw [he]
      constructor
      · intro r h; cases h
      · intro err h; cases h
        exact ⟨0, by simp, hr, by simp, _, _, _, rfl⟩
    · simp only [AdjData.readEntries, AdjData.sliceGet]
      rw [if_pos (show AdjData.offsetToIndex e.index_buffer_offset ≤ AdjData.offsetToIndex e'.index_buffer_offset ∧
          AdjData.offsetToIndex e'.index_buffer_offset ≤ buf.length from hr)]
      simp only
      split
      · rename_i err he
        constructor
        · intro r h; cases h
        · intro err' h; cases h
          obtain ⟨i, hi, h1, h2, h3⟩ := ih2 _ he
          refine ⟨i + 1, by simpa using hi, h1, ?_, h3⟩
          intro j hj
          cases j with
          | zero => exact hr
          | succ j => exact h2 j (by omega)
      · rename_i rest he
        constructor
        · intro r h; cases h
          obtain ⟨h1, h2⟩ := ih1 _ he
          refine ⟨by simp [h1], ?_⟩
          intro i x hx
          cases i with
          | zero =>
            simp only [List.getElem?_cons_zero, Option.some.injEq] at hx
            subst hx
            refine ⟨hr, rfl, ?_⟩
            simp only [adjStop, adjStart, List.getElem?_cons_succ, List.getElem?_cons_zero, Option.map_some,
              Option.getD_some, List.drop_take]
            rfl
          | succ i => exact h2 i x (by simpa using hx)
        · intro err' h; cases h

/-- C18: a malformed file type value is rejected exactly if the range of some entry is reversed or not contained
in the buffer. Otherwise there is an entry for every entry, with exactly its part of the buffer. -/
theorem C18_ranges (a : Adj) :
    ((∃ err, AdjData.ofAdj a = .error err) ↔ ∃ i, i < a.entries.length ∧ ¬ adjRangeOk a i) ∧
    (∀ d, AdjData.ofAdj a = .ok d → d.entries.length = a.entries.length ∧
      ∀ i x, d.entries[i]? = some x → adjSlice a i x) ∧
    (∀ err, AdjData.ofAdj a = .error err → err ≠ .panic) := by
  obtain ⟨h1, h2⟩ := readEntries_spec a.index_buffer a.entries
  simp only [AdjData.ofAdj]
  split
  · rename_i err he
    obtain ⟨i, hi, hb, _, s, t, n, rfl⟩ := h2 _ he
    refine ⟨⟨fun _ => ⟨i, hi, hb⟩, fun _ => ⟨_, rfl⟩⟩, ?_, ?_⟩
    · intro d h; cases h
    · intro err h; cases h; simp
  · rename_i es he
    obtain ⟨hl, hx⟩ := h1 _ he
    refine ⟨⟨?_, ?_⟩, ?_, ?_⟩
    · rintro ⟨_, h⟩; cases h
    · rintro ⟨i, hi, hb⟩
      exact absurd (hx i _ (List.getElem?_eq_getElem (by omega))).1 hb
    · intro d h; cases h
      exact ⟨hl, fun i x h => (hx i x h).2⟩
    · intro err h; cases h

example : ∃ err, AdjData.ofAdj ⟨[⟨0, 4⟩, ⟨1, 2⟩], [1, 2, 3]⟩ = .error err := ⟨_, rfl⟩
example : ∃ d, AdjData.ofAdj ⟨[⟨0, 2⟩, ⟨1, 4⟩], [1, 2, 3]⟩ = .ok d := ⟨_, rfl⟩

/-! ## C19 -/

/-- The corners of the triangles in order, each with the following and the preceding corner of its triangle. -/
def corners : List UInt32 → List (UInt32 × UInt32 × UInt32)
  | a :: b :: c :: rest => (a, b, c) :: (b, c, a) :: (c, a, b) :: corners rest
  | _ => []

/-- The adjacent vertices of vertex `j` itself: the two other corners for every corner at `j`. -/
def adjacentTo (indices : List UInt32) (j : Nat) : List Int16 :=
  (corners indices).flatMap (fun (v, next, prev) =>
    if v.toNat = j then [next.toUInt16.toInt16, prev.toUInt16.toInt16] else [])

/-- The adjacent vertices of vertex `i`: those of all vertices with an equal position. -/
def adjacentAll (eq : α → α → Bool) (positions : List α) (indices : List UInt32) (q : α) : List Int16 :=
  (List.range positions.length).flatMap (fun j =>
    if (positions[j]?.map (eq · q)) = some true then adjacentTo indices j else [])

/-- Cut to `n` elements or filled with -1. -/
def cutOrFill (n : Nat) (l : List Int16) : List Int16 := (l ++ List.replicate n (-1)).take n

theorem pushAt_ok {adj : List (List Int16)} {i x : UInt32} (h : i.toNat < adj.length) :
    AdjData.pushAt adj i x = .ok (adj.modify i.toNat (· ++ [AdjData.asI16 x])) := if_pos h

theorem pushAt_err {adj : List (List Int16)} {i x : UInt32} (h : ¬ i.toNat < adj.length) :
    AdjData.pushAt adj i x = .error .panic := if_neg h

theorem addFace_ok {adj : List (List Int16)} {a b c : UInt32} (ha : a.toNat < adj.length) (hb : b.toNat < adj.length)
    (hc : c.toNat < adj.length) : ∃ adj', AdjData.addFace adj (a, b, c) = .ok adj' ∧ adj'.length = adj.length ∧
      ∀ (j : Nat) (row : List Int16), adj[j]? = some row → adj'[j]? = some (row ++ adjacentTo [a, b, c] j) := by
  have e : AdjData.addFace adj (a, b, c) = .ok ((((((adj.modify a.toNat (· ++ [AdjData.asI16 b])).modify a.toNat
      (· ++ [AdjData.asI16 c])).modify b.toNat (· ++ [AdjData.asI16 c])).modify b.toNat (· ++ [AdjData.asI16 a])).modify
      c.toNat (· ++ [AdjData.asI16 a])).modify c.toNat (· ++ [AdjData.asI16 b])) := by
    simp only [AdjData.addFace]
    rw [pushAt_ok ha]; simp only [bind, Except.bind]
    rw [pushAt_ok (by simpa using ha)]; simp only
    rw [pushAt_ok (by simpa using hb)]; simp only
    rw [pushAt_ok (by simpa using hb)]; simp only
    rw [pushAt_ok (by simpa using hc)]; simp only
    rw [pushAt_ok (by simpa using hc)]
  refine ⟨_, e, by simp, ?_⟩
  · intro j row hrow
    simp only [List.getElem?_modify, hrow, Option.map_eq_map, Option.map_some, Option.some.injEq, adjacentTo, corners,
      List.flatMap_cons, List.flatMap_nil, AdjData.asI16]
    by_cases h1 : a.toNat = j <;> by_cases h2 : b.toNat = j <;> by_cases h3 : c.toNat = j <;>
      simp [h1, h2, h3]

theorem addFace_err {adj : List (List Int16)} {a b c : UInt32}
    (h : ¬ (a.toNat < adj.length ∧ b.toNat < adj.length ∧ c.toNat < adj.length)) :
    AdjData.addFace adj (a, b, c) = .error .panic := by
  simp only [AdjData.addFace]
  by_cases ha : a.toNat < adj.length
  · rw [pushAt_ok ha]; simp only [bind, Except.bind]
    rw [pushAt_ok (by simpa using ha)]; simp only
    by_cases hb : b.toNat < adj.length
    · rw [pushAt_ok (by simpa using hb)]; simp only
      rw [pushAt_ok (by simpa using hb)]; simp only
      rw [pushAt_err (by simp; omega)]
    · rw [pushAt_err (by simpa using hb)]
  · rw [pushAt_err ha]; rfl

theorem adjacentTo_cons (a b c : UInt32) (rest : List UInt32) (j : Nat) :
    adjacentTo (a :: b :: c :: rest) j = adjacentTo [a, b, c] j ++ adjacentTo rest j := by
  simp [adjacentTo, corners]

theorem addFaces_spec : ∀ (is : List UInt32) (adj : List (List Int16)),
    ((∀ c ∈ corners is, c.1.toNat < adj.length) → ∃ adj', AdjData.addFaces (AdjData.faces is) adj = .ok adj' ∧
      adj'.length = adj.length ∧ ∀ (j : Nat) (row : List Int16), adj[j]? = some row → adj'[j]? = some (row ++ adjacentTo is j)) ∧
    (¬ (∀ c ∈ corners is, c.1.toNat < adj.length) → AdjData.addFaces (AdjData.faces is) adj = .error .panic)
  | a :: b :: c :: rest, adj => by
    simp only [corners, List.mem_cons, forall_eq_or_imp]
    by_cases hf : a.toNat < adj.length ∧ b.toNat < adj.length ∧ c.toNat < adj.length
    · obtain ⟨adj1, e1, l1, g1⟩ := addFace_ok hf.1 hf.2.1 hf.2.2
      obtain ⟨i1, i2⟩ := addFaces_spec rest adj1
      simp only [AdjData.faces, AdjData.addFaces, e1, bind, Except.bind]
      rw [l1] at i1 i2
      constructor
      · rintro ⟨_, _, _, h⟩
        obtain ⟨adj', e2, l2, g2⟩ := i1 h
        refine ⟨adj', e2, by omega, ?_⟩
        intro j row hrow
        rw [g2 j _ (g1 j row hrow), adjacentTo_cons a b c rest, List.append_assoc]
      · intro h
        apply i2
        intro hh
        exact h ⟨hf.1, hf.2.1, hf.2.2, hh⟩
    · simp only [AdjData.faces, AdjData.addFaces, addFace_err hf, bind, Except.bind]
      constructor
      · rintro ⟨h1, h2, h3, _⟩; exact absurd ⟨h1, h2, h3⟩ hf
      · intro _; trivial
  | [], adj => by
    refine ⟨fun _ => ⟨adj, rfl, rfl, fun j row h => ?_⟩, fun h => absurd (by simp [corners]) h⟩
    rw [h]; simp [adjacentTo, corners]
  | [_], adj => by
    refine ⟨fun _ => ⟨adj, rfl, rfl, fun j row h => ?_⟩, fun h => absurd (by simp [corners]) h⟩
    rw [h]; simp [adjacentTo, corners]
  | [_, _], adj => by
    refine ⟨fun _ => ⟨adj, rfl, rfl, fun j row h => ?_⟩, fun h => absurd (by simp [corners]) h⟩
    rw [h]; simp [adjacentTo, corners]

theorem collectRows_ok {adj : List (List Int16)} {g : Nat → List Int16} : ∀ (js : List Nat),
    (∀ j ∈ js, adj[j]? = some (g j)) → AdjData.collectRows adj js = .ok (js.flatMap g)
  | [], _ => rfl
  | j :: js, h => by
    simp only [AdjData.collectRows, h j (by simp), collectRows_ok js (fun x hx => h x (by simp [hx]))]
    rfl

theorem positions_flatMap (eq : α → α → Bool) (q : α) (g : Nat → List Int16) : ∀ (ps : List α) (k : Nat),
    ((ps.zipIdx k).filter (fun (p, _) => eq p q)).flatMap (fun x => g x.2) =
      (List.range ps.length).flatMap (fun j => if (ps[j]?.map (eq · q)) = some true then g (k + j) else [])
  | [], k => rfl
  | p :: ps, k => by
    have := positions_flatMap eq q g ps (k + 1)
    simp only [List.zipIdx_cons, List.length_cons, List.range_succ_eq_map, List.flatMap_cons, List.flatMap_map,
      List.getElem?_cons_succ, List.getElem?_cons_zero, Option.map_some, Nat.add_zero, Option.some.injEq]
    simp only [Nat.add_assoc, Nat.add_comm 1] at this
    rw [← this]
    by_cases h : eq p q = true <;> simp [h]

theorem withSeams_ok (eq : α → α → Bool) {adj : List (List Int16)} {all : List α} {is : List UInt32}
    (h : ∀ j, j < all.length → adj[j]? = some (adjacentTo is j)) : ∀ qs : List α,
    AdjData.withSeams eq adj all qs = .ok (qs.map (adjacentAll eq all is))
  | [] => rfl
  | q :: qs => by
    have hc := collectRows_ok (adj := adj) (g := adjacentTo is) (AdjData.positionsEq eq all q) (by
      intro j hj
      simp only [AdjData.positionsEq, List.mem_map, List.mem_filter] at hj
      obtain ⟨⟨p, j'⟩, ⟨hm, _⟩, rfl⟩ := hj
      have := List.snd_lt_of_mem_zipIdx hm
      exact h _ (by simpa using this))
    have hp : (AdjData.positionsEq eq all q).flatMap (adjacentTo is) = adjacentAll eq all is q := by
      have := positions_flatMap eq q (adjacentTo is) all 0
      simp only [Nat.zero_add] at this
      rw [AdjData.positionsEq, List.flatMap_map, adjacentAll, ← this]
    rw [hp] at hc
    simp only [AdjData.withSeams, hc, withSeams_ok eq h qs]
    rfl

theorem resize_eq (n : Nat) (l : List Int16) : AdjData.resize n l = cutOrFill n l := by
  simp only [AdjData.resize, cutOrFill]
  split
  · rw [List.take_append_of_le_length (by omega)]
  · rw [List.take_append, List.take_of_length_le (by omega), List.take_replicate]
    congr 2
    omega

theorem cutOrFill_length (n : Nat) (l : List Int16) : (cutOrFill n l).length = n := by
  simp [cutOrFill]

/-- C19: the slots of the vertices follow each other, 18 for each vertex. Slots of a vertex are the two other corners
of each face corner at a vertex with an equal position, in order of vertices and then faces, cut to 18 or filled with -1.
The equality of positions is an arbitrary boolean function. -/
theorem C19_adjacency (eq : α → α → Bool) (objectIndex : Nat) (positions : List α) (indices : List UInt32)
    (hi : ∀ c ∈ corners indices, c.1.toNat < positions.length) :
    ∃ r, AdjData.fromTriangleFaces eq objectIndex positions indices = .ok r ∧ r.mesh_object_index = objectIndex ∧
      r.vertex_adjacency = positions.flatMap (fun q => cutOrFill 18 (adjacentAll eq positions indices q)) ∧
      r.vertex_adjacency.length = 18 * positions.length := by
  obtain ⟨h1, _⟩ := addFaces_spec indices (List.replicate positions.length [])
  rw [List.length_replicate] at h1
  obtain ⟨adj, e1, l1, g1⟩ := h1 hi
  have h2 := withSeams_ok eq (adj := adj) (all := positions) (is := indices) (fun j hj => by
    have := g1 j [] (by simp [hj])
    simpa using this) positions
  have e : ((positions.map (adjacentAll eq positions indices)).flatMap (AdjData.resize 18)) =
      positions.flatMap (fun q => cutOrFill 18 (adjacentAll eq positions indices q)) := by
    rw [List.flatMap_map]
    congr 1
    funext q
    rw [resize_eq]
  refine ⟨⟨objectIndex, positions.flatMap (fun q => cutOrFill 18 (adjacentAll eq positions indices q))⟩, ?_, rfl, rfl, ?_⟩
  · simp only [AdjData.fromTriangleFaces, AdjData.triangleAdjacency, e1, bind, Except.bind, h2, pure, Except.pure, e]
  · rw [List.length_flatMap]
    simp only [cutOrFill_length, List.map_const', List.sum_replicate_nat]
    omega

/-- The result is a panic exactly if a face refers to a vertex without position. The remaining indices after the
last complete triangle are ignored. -/
theorem C19_panics_iff (eq : α → α → Bool) (objectIndex : Nat) (positions : List α) (indices : List UInt32) :
    AdjData.fromTriangleFaces eq objectIndex positions indices = .error .panic ↔
      ∃ c ∈ corners indices, ¬ c.1.toNat < positions.length := by
  constructor
  · intro h
    apply Classical.byContradiction
    intro hc
    have hc : ∀ c ∈ corners indices, c.1.toNat < positions.length := by
      intro c hm
      apply Classical.byContradiction
      intro h'
      exact hc ⟨c, hm, h'⟩
    obtain ⟨r, hr, _⟩ := C19_adjacency eq objectIndex positions indices hc
    rw [hr] at h
    cases h
  · rintro ⟨c, hm, hc⟩
    have := (addFaces_spec indices (List.replicate positions.length [])).2 (by
      intro h
      have := h c hm
      rw [List.length_replicate] at this
      exact hc this)
    simp only [AdjData.fromTriangleFaces, AdjData.triangleAdjacency, this, bind, Except.bind]

example : ∀ c ∈ corners [0, 1, 2, 2, 1, 3], c.1.toNat < [(1 : Nat), 2, 1, 4].length := by decide
example : cutOrFill 18 (adjacentAll (· == ·) [(1 : Nat), 2, 1, 4] [0, 1, 2, 2, 1, 3] 1) =
    [1, 2, 0, 1, 1, 3, -1, -1, -1, -1, -1, -1, -1, -1, -1, -1, -1, -1] := by decide

end Verif.Props
