import Verif.Data.DataStreams
import Verif.Props.Anywhere
import Verif.Props.DataFiles
import Verif.Props.PlainStreams
import Verif.Props.Bounding
/-!
# C96: data types in streams
-/

namespace Verif.Props
open Verif

/-- What it means that a value can be kept in a stream which holds `buf` and stands at `k`, where `alone` and `inside`
are the results of writing it to an empty writer and into the stream, and `read` and `readAt` read a file and a part
of a stream:

* Written into the stream, the value could also be written alone. Reading the stream from `k`, whatever is appended
  to it, has the result of reading the file. Outside of the file the stream is unchanged.
* A value which can be written alone can be written into the stream, unless the end of the file is too close to
  position 2^64.
* The value cannot be converted for the one writer if and only if it cannot for the other. The only other error is
  that of positions which do not fit in 64 bits. -/
structure Keeps (alone : Except DataErr Bytes) (inside : Except DataErr (Bytes × Nat)) (read : Bytes → R)
    (readAt : Bytes → Nat → R) (buf : Bytes) (k : Nat) : Prop where
  written : ∀ out q, inside = .ok (out, q) → ∃ file, alone = .ok file ∧
    (∀ rest, readAt (out ++ rest) k = read file) ∧
    ∀ i x, buf[i]? = some x → i < k ∨ k + file.length ≤ i → out[i]? = some x
  fits : ∀ file, alone = .ok file → k + file.length + 8 ≤ 2 ^ 64 → ∃ out q, inside = .ok (out, q)
  convert : inside = .error .convert ↔ alone = .error .convert
  other : ∀ e, inside = .error e → e = .convert ∨ e = .write .overflow

theorem writeAsStream_eq {α : Type} [t : SsbhType α] [l : LawSsbh α] (v : α) (buf : Bytes) (k : Nat) :
    writeAsStream v buf k = (t.inj v).writeStream buf k := by
  rw [writeAsStream, Ssbh.writeStream, l.writeTo]
  rfl

theorem writeAs_eq {α : Type} [t : SsbhType α] [l : LawSsbh α] (v : α) : (t.inj v).write = writeAs v := by
  simp only [Ssbh.write, l.write]
  rfl

theorem as_keeps {α : Type} [t : SsbhType α] [l : LawSsbh α] (v : α) (buf out : Bytes) (k q : Nat) (hk : 16 ∣ k)
    (h : writeAsStream v buf k = .ok (out, q)) : ∃ file, writeAs v = .ok file ∧ readAs α file = .ok v ∧
      (∀ rest, readAsAt α (out ++ rest) k = .ok v) ∧
      ∀ i x, buf[i]? = some x → i < k ∨ k + file.length ≤ i → out[i]? = some x := by
  rw [writeAsStream_eq] at h
  obtain ⟨file, hw, ha⟩ := C62_keeps_after _ _ _ _ _ hk h
  rw [writeAs_eq] at hw
  refine ⟨file, hw, C01_format_round_trip v file hw, fun rest => ?_, fun i x hx hi => ?_⟩
  · simp only [readAsAt, C62_round_trip _ _ _ rest _ _ hk h, l.proj]
  · rcases hi with hi | hi
    · exact C62_keeps_before _ _ _ _ _ h i x hx hi
    · exact ha i x hx hi

/-- The step from a file type to a data type. -/
theorem keeps_of {α : Type} [t : SsbhType α] [l : LawSsbh α] (v : α) (buf : Bytes) (k : Nat) (hk : 16 ∣ k)
    {read : Bytes → R} {readAt : Bytes → Nat → R} (g : Except RErr α → R) (h1 : ∀ b, read b = g (readAs α b))
    (h2 : ∀ b p, readAt b p = g (readAsAt α b p)) :
    Keeps (liftWrite (writeAs v)) (liftWrite (writeAsStream v buf k)) read readAt buf k where
  written := fun out q h => by
    obtain ⟨file, hw, hr, ha, ho⟩ := as_keeps v buf out k q hk (liftWrite_ok.mp h)
    exact ⟨file, liftWrite_ok.mpr hw, fun rest => by rw [h1, h2, hr, ha], ho⟩
  fits := fun file h hl => by
    have h' := liftWrite_ok.mp h
    rw [← writeAs_eq] at h'
    obtain ⟨out, q, ho⟩ := C62_fits _ buf file k hk h' hl
    exact ⟨out, q, by rw [writeAsStream_eq, ho]; rfl⟩
  convert := by
    cases writeAs v <;> cases writeAsStream v buf k <;> simp [liftWrite]
  other := fun e h => by
    cases h1 : writeAsStream v buf k with
    | ok _ => rw [h1] at h; cases h
    | error e' =>
      rw [h1] at h
      rw [writeAsStream_eq] at h1
      cases h
      rw [C62_write_total _ _ _ _ h1]
      exact .inr rfl

theorem keeps_error {read : Bytes → R} {readAt : Bytes → Nat → R} {buf : Bytes} {k : Nat} :
    Keeps (.error .convert) (.error .convert) read readAt buf k where
  written := fun _ _ h => by cases h
  fits := fun _ h => by cases h
  convert := ⟨fun _ => rfl, fun _ => rfl⟩
  other := fun _ h => by cases h; exact .inl rfl

theorem C96_modl (d : ModlData) (buf : Bytes) (k : Nat) (hk : 16 ∣ k) :
    Keeps d.write (d.writeStream buf k) ModlData.read ModlData.readAt buf k :=
  keeps_of d.toModl buf k hk (fun r => (liftRead r).map ModlData.ofModl) (fun _ => rfl) (fun _ _ => rfl)

theorem C96_hlpb (d : HlpbData) (buf : Bytes) (k : Nat) (hk : 16 ∣ k) :
    Keeps d.write (d.writeStream buf k) HlpbData.read HlpbData.readAt buf k :=
  keeps_of d.toHlpb buf k hk (fun r => (liftRead r).map HlpbData.ofHlpb) (fun _ => rfl) (fun _ _ => rfl)

theorem C96_matl (d : MatlData) (buf : Bytes) (k : Nat) (hk : 16 ∣ k) :
    Keeps d.write (d.writeStream buf k) MatlData.read MatlData.readAt buf k := by
  unfold MatlData.write MatlData.writeStream
  cases d.toMatl with
  | error e => exact keeps_error
  | ok f => exact keeps_of f buf k hk (fun r => (liftRead r).map MatlData.ofMatl) (fun _ => rfl) (fun _ _ => rfl)

theorem C96_skel (O : MatOps Matrix4x4) (d : SkelData) (buf : Bytes) (k : Nat) (hk : 16 ∣ k) :
    Keeps (d.write O) (d.writeStream O buf k) SkelData.read SkelData.readAt buf k := by
  unfold SkelData.write SkelData.writeStream
  cases d.toSkel O with
  | none => exact keeps_error
  | some r =>
    cases r with
    | error e => exact keeps_error
    | ok f => exact keeps_of f buf k hk (fun r => (liftRead r).map SkelData.ofSkel) (fun _ => rfl) (fun _ _ => rfl)

/-- Reading can panic; then it panics for the file and for the stream. -/
theorem C96_anim (F : FloatOps) (order : List AnimData.GroupData → List AnimData.GroupData) (checks : Bool) (d : AnimData)
    (buf : Bytes) (k : Nat) (hk : 16 ∣ k) :
    Keeps (d.write F) (d.writeStream F buf k) (AnimData.readAny F order checks) (AnimData.readAnyAt F order checks) buf k := by
  unfold AnimData.write AnimData.writeStream
  cases AnimData.create F d with
  | error e => exact keeps_error
  | ok a =>
    refine keeps_of a buf k hk (fun r =>
      match liftRead r with
      | .error e => some (.error e)
      | .ok (.V12 a) => (AnimData.ofV12 order checks a).map .ok
      | .ok a =>
        match AnimData.ofAnim F a with
        | none => none
        | some (.error .panic) => none
        | some (.error _) => some (.error .convert)
        | some (.ok d) => some (.ok d)) (fun b => ?_) (fun _ _ => rfl)
    unfold AnimData.readAny AnimData.read
    cases readAs Anim b with
    | error e => rfl
    | ok x => cases x <;> rfl

theorem C96_mesh (F : FloatConv) (bounds : List (Vector F32 3) → Mesh.BoundingInfo) (d : MeshData) (buf : Bytes) (k : Nat)
    (hk : 16 ∣ k) :
    Keeps (d.write F bounds) (d.writeStream F bounds buf k) (MeshData.read F) (MeshData.readAt F) buf k := by
  unfold MeshData.write MeshData.writeStream
  cases MeshData.toMesh F bounds d with
  | error e => exact keeps_error
  | ok m =>
    exact keeps_of m buf k hk (fun r =>
      match liftRead r with
      | .error e => .error e
      | .ok m =>
        match MeshData.ofMesh F m with
        | .error _ => .error .convert
        | .ok d => .ok d) (fun _ => rfl) (fun _ _ => rfl)

/-! The two types without the container. -/

/-- The position does not matter for MeshExData. The first eight bytes of the stream are lost (`C94_meshex_length`);
the rest in front of the file is unchanged. For fewer than 2^32 groups and flags. -/
theorem C96_meshex (sphereOf : List Mesh.BoundingSphere → Mesh.BoundingSphere) (d : MeshExData) (buf out : Bytes) (k q : Nat)
    (h : d.writeStream sphereOf buf k = .ok (out, q)) (hg : d.mesh_object_groups.length < 2 ^ 32)
    (hf : (d.mesh_object_groups.map (·.entry_flags.length)).sum < 2 ^ 32) :
    (∀ rest, MeshExData.readAt (out ++ rest) k = .ok ⟨d.mesh_object_groups.map fun g =>
      { g with
        mesh_object_full_name := cutNul g.mesh_object_full_name
        mesh_object_name := cutNul g.mesh_object_name }⟩) ∧
    ∀ i, 8 ≤ i → i < k → out[i]? = some (buf[i]?.getD 0) := by
  have h' := liftWrite_ok.mp h
  obtain ⟨groups, entries, flags, e1, e2, e3, l1, _, l2, l3⟩ := C33_entries sphereOf d (Nat.le_of_lt hg)
  have hc : CountsFit (d.toMeshEx sphereOf) := by
    refine ⟨?_, ?_, ?_⟩
    · rw [e2]; simp only [countOf, Option.getD_some]; omega
    · rw [e3]; simp only [countOf, Option.getD_some]; omega
    · rw [e1]; simp only [countOf, Option.getD_some]; omega
  refine ⟨fun rest => ?_, C94_meshex_keeps _ _ _ _ _ hc h'⟩
  rw [MeshExData.readAt, C94_meshex_round_trip _ _ _ rest _ _ hc h', ← C33_round_trip sphereOf d (Nat.le_of_lt hg)]
  rfl

theorem readI16s_bytes : ∀ b : Bytes,
    (Adj.readI16s b).flatMap (fun i => leBytes 2 i.toUInt16.toNat) = b.take (b.length / 2 * 2)
  | [] => rfl
  | [x] => by simp [Adj.readI16s]
  | x :: y :: l => by
    have hl : (x :: y :: l).length / 2 * 2 = l.length / 2 * 2 + 2 := by simp only [List.length_cons]; omega
    rw [hl, List.take_succ_cons, List.take_succ_cons, Adj.readI16s, List.flatMap_cons, readI16s_bytes l]
    have hx := x.toNat_lt
    have hy := y.toNat_lt
    have h1 : (UInt16.ofNat (fromLe [x, y])).toInt16.toUInt16.toNat = x.toNat + 256 * y.toNat := by
      simp only [fromLe, UInt16.toNat_ofNat', UInt16.toUInt16_toInt16]
      omega
    have h2 : leBytes 2 (x.toNat + 256 * y.toNat) = [x, y] := by
      have e1 : (x.toNat + 256 * y.toNat) % 256 = x.toNat := by omega
      have e2 : (x.toNat + 256 * y.toNat) / 256 = y.toNat := by omega
      simp only [leBytes, e2]
      refine congrArg₂ _ ?_ (congrArg₂ _ ?_ rfl)
      · apply UInt8.toNat_inj.mp; simp only [UInt8.toNat_ofNat']; omega
      · apply UInt8.toNat_inj.mp; simp only [UInt8.toNat_ofNat']; omega
    rw [h1, h2]
    rfl

theorem scan_last (e : AdjEntryData) (more : List Int16) : ∀ (es : List AdjEntryData) (n : Nat),
    AdjData.scanEntries n (es ++ [⟨e.mesh_object_index, e.vertex_adjacency ++ more⟩]) = AdjData.scanEntries n (es ++ [e])
  | [], n => rfl
  | x :: es, n => by simp only [List.cons_append, AdjData.scanEntries, scan_last e more es]

theorem scan_length : ∀ (es : List AdjEntryData) (n : Nat), (AdjData.scanEntries n es).length = es.length
  | [], _ => rfl
  | e :: es, n => by rw [AdjData.scanEntries, List.length_cons, scan_length, List.length_cons]

/-- AdjData is not kept: the last entry gets everything that follows in the stream, as indices of two bytes. A last
single byte is dropped. For fewer than 2^32 entries, object indices below 2^32 and byte offsets below 2^32. -/
theorem C96_adj (es : List AdjEntryData) (e : AdjEntryData) (buf out rest : Bytes) (k q : Nat)
    (h : (⟨es ++ [e]⟩ : AdjData).writeStream buf k = .ok (out, q)) (hn : es.length + 1 < 2 ^ 32)
    (hi : ∀ x ∈ es ++ [e], x.mesh_object_index < 2 ^ 32) (ho : 2 * adjTotal es < 2 ^ 32) :
    ∃ (file after : Bytes) (more : List Int16), (⟨es ++ [e]⟩ : AdjData).write = .ok file ∧ q = k + file.length ∧
      after = buf.drop q ++ rest ∧ (out ++ rest).drop q = after ∧
      more.flatMap (fun i => leBytes 2 i.toUInt16.toNat) = after.take (after.length / 2 * 2) ∧
      AdjData.readAt (out ++ rest) k = .ok ⟨es ++ [⟨e.mesh_object_index, e.vertex_adjacency ++ more⟩]⟩ := by
  have h' := liftWrite_ok.mp h
  obtain ⟨file, pre, hw, hp, -, hs⟩ := C94_adj_written (⟨es ++ [e]⟩ : AdjData).toAdj buf k
  rw [hs] at h'
  have hs' := hs
  cases h'
  refine ⟨file, _, Adj.readI16s (buf.drop (k + file.length) ++ rest), liftWrite_ok.mpr hw, rfl, rfl, ?_,
    readI16s_bytes _, ?_⟩
  · rw [List.append_assoc, List.drop_append_of_le_length (by simp [hp]), List.drop_of_length_le (by simp [hp]), List.nil_append]
  rw [AdjData.readAt, C94_adj_read _ _ _ rest _ _ (by rw [AdjData.toAdj]; simp only [scan_length, List.length_append, List.length_singleton]; exact hn) hs]
  generalize Adj.readI16s (buf.drop (k + file.length) ++ rest) = more
  have hd := C18_identity ⟨es ++ [⟨e.mesh_object_index, e.vertex_adjacency ++ more⟩]⟩ (fun x hx => by
    simp only [List.mem_append, List.mem_singleton] at hx
    rcases hx with hx | rfl
    · exact hi x (List.mem_append_left _ hx)
    · exact hi e (by simp)) (fun p x q hpq => by
    have hpre : p <+: es := by
      have h1 : p <+: es ++ [⟨e.mesh_object_index, e.vertex_adjacency ++ more⟩] := ⟨x :: q, hpq.symm⟩
      have h2 := congrArg List.length hpq
      simp only [List.length_append, List.length_cons, List.length_nil] at h2
      exact List.prefix_of_prefix_length_le h1 (List.prefix_append _ _) (by omega)
    obtain ⟨r, rfl⟩ := hpre
    simp only [adjTotal, List.map_append, List.sum_append] at ho ⊢
    omega)
  simp only [AdjData.toAdj, scan_last, List.flatMap_append, List.flatMap_cons, List.flatMap_nil, List.append_nil] at hd
  simp only [liftRead, AdjData.toAdj, List.flatMap_append, List.flatMap_cons, List.flatMap_nil, List.append_nil,
    List.append_assoc, hd]

/-- Two AdjData values one after the other: the second one is read back, the first one is not. -/
theorem C96_adj_two : ∃ (d d' : AdjData) (out out' : Bytes) (q q' : Nat), d.writeStream [] 0 = .ok (out, q) ∧
    d'.writeStream out q = .ok (out', q') ∧ AdjData.readAt out 0 = .ok d ∧ AdjData.readAt out' q = .ok d' ∧
    ∃ wrong, AdjData.readAt out' 0 = .ok wrong ∧ wrong ≠ d :=
  ⟨exAdjData, ⟨[⟨1, [2]⟩]⟩, _, _, _, _, congrArg liftWrite (adj_stream _ _ _), congrArg liftWrite (adj_stream _ _ _),
    by decide +kernel, by decide +kernel, ⟨[⟨3, [1, 2, -1]⟩, ⟨4, []⟩, ⟨5, [7, 7, 1, 0, 1, 0, 0, 0, 2]⟩]⟩,
    by decide +kernel, by decide⟩

/-! Streams with other data in front and behind to which the theorems apply. -/

example : ∃ out q, sampleModl.writeStream (List.replicate 500 9) 48 = .ok (out, q) ∧
    ModlData.readAt (out ++ [1, 2, 3]) 48 = .ok sampleModl := by
  obtain ⟨⟨out, q⟩, h⟩ := isOk_iff.mp (show isOk (sampleModl.writeStream (List.replicate 500 9) 48) = true by decide +kernel)
  obtain ⟨file, hw, hr, -⟩ := (C96_modl sampleModl _ 48 (by decide)).written out q h
  refine ⟨out, q, h, ?_⟩
  rw [hr, C45_modl _ _ hw, ← C32_round_trip, C32_identity _ (by decide) (by decide +kernel)]

example : isOk (sampleMatl.writeStream (List.replicate 500 9) 48) = true := by decide +kernel
example : isOk (sampleHlpb.writeStream (List.replicate 500 9) 48) = true := by decide +kernel
example : isOk (chainSkel.writeStream countOps (List.replicate 500 9) 48) = true := by decide +kernel
example : isOk (smallAnim.writeStream simpleOps (List.replicate 500 9) 48) = true := by decide +kernel
example : isOk (sampleMeshEx.writeStream (fun _ => ⟨⟨0, 0, 0⟩, 0⟩) (List.replicate 500 9) 49) = true := by decide +kernel
example : isOk ((triangle 10).writeStream exampleConv (MeshData.calculateBoundingInfo foldGeometry) (List.replicate 500 9) 48) = true := by
  decide +kernel
example : cyclicSkel.writeStream countOps [] 16 = .error .convert := by decide +kernel

end Verif.Props
