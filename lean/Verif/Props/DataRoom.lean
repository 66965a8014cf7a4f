import Verif.Data.DataRoom
import Verif.Props.Room
import Verif.Props.DataStreams
/-!
# C101: data types and memory of a fixed size
-/

namespace Verif.Props
open Verif

/-- What it means that a value can be written to streams with limited room. `alone` is the result of writing it to an
empty writer, `inside buf k` into a stream which holds `buf` and stands at `k`, and `limited room buf k` into such a
stream that cannot become longer than `room`. `padded` says that the writer pads the stream to a multiple of 8.

* `room`: A value which is written without the limit is written if and only if it ends within the room and, if `padded`,
  the length of the old content rounded up to 8 is within the room. The result is then the same.
* `slice`: Memory of a fixed size keeps its size, and reading it from `k` has the result of reading the file. Outside of
  the file it is unchanged.
* `exact`: Zeroed memory of the length of the file takes the value and then holds exactly the file. Smaller memory
  does not.
* `convert`: The value cannot be converted for the one writer if and only if it cannot for the other.
* `other`: The only other errors are the lack of room and that of positions which do not fit in 64 bits. -/
structure Limited (alone : Except DataErr Bytes) (inside : Bytes → Nat → Except DataErr (Bytes × Nat))
    (limited : Nat → Bytes → Nat → Except DataRoomErr (Bytes × Nat)) (read : Bytes → R) (readAt : Bytes → Nat → R)
    (padded : Bool) : Prop where
  room : ∀ (n : Nat) (buf out : Bytes) (k q : Nat), 16 ∣ k → buf.length ≤ n → inside buf k = .ok (out, q) →
    ∃ file, alone = .ok file ∧ limited n buf k =
      if k + file.length ≤ n ∧ (padded = true → roundUp buf.length 8 ≤ n) then .ok (out, q) else .error (.write .full)
  slice : ∀ (buf out : Bytes) (k q : Nat), 16 ∣ k → limited buf.length buf k = .ok (out, q) →
    ∃ file, alone = .ok file ∧ k + file.length ≤ buf.length ∧ out.length = buf.length ∧ readAt out k = read file ∧
      ∀ i x, buf[i]? = some x → i < k ∨ k + file.length ≤ i → out[i]? = some x
  exact : ∀ file : Bytes, alone = .ok file → file.length + 8 ≤ 2 ^ 64 →
    (∃ q, limited file.length (List.replicate file.length 0) 0 = .ok (file, q)) ∧
    ∀ buf : Bytes, buf.length < file.length → limited buf.length buf 0 = .error (.write .full)
  convert : ∀ n buf k, limited n buf k = .error .convert ↔ alone = .error .convert
  other : ∀ n buf k e, limited n buf k = .error e → e = .convert ∨ e = .write .full ∨ e = .write (.other .overflow)

theorem writeAsRoom_eq {α : Type} [t : SsbhType α] [l : LawSsbh α] (v : α) (room : Nat) (buf : Bytes) (k : Nat) :
    writeAsRoom v room buf k = (t.inj v).writeRoom room buf k := by
  rw [writeAsRoom, Ssbh.writeRoom, l.writeTo]
  rfl

theorem liftRoom_ok {r : Except RoomErr β} {v : β} : liftRoom r = .ok v ↔ r = .ok v := by
  cases r <;> simp [liftRoom]

/-- The step from a file type to a data type. -/
theorem limited_of {α : Type} [t : SsbhType α] [l : LawSsbh α] (v : α) {p : Bool} (hp : leftAtEnd (t.inj v) = p)
    {read : Bytes → R} {readAt : Bytes → Nat → R} (g : Except RErr α → R) (h1 : ∀ b, read b = g (readAs α b))
    (h2 : ∀ b p, readAt b p = g (readAsAt α b p)) :
    Limited (liftWrite (writeAs v)) (fun buf k => liftWrite (writeAsStream v buf k))
      (fun n buf k => liftRoom (writeAsRoom v n buf k)) read readAt p where
  room := fun n buf out k q hk hb h => by
    have h' := liftWrite_ok.mp h
    rw [writeAsStream_eq] at h'
    obtain ⟨file, hf, hw⟩ := C95_room _ n buf out k q hk hb h'
    rw [writeAs_eq] at hf
    refine ⟨file, liftWrite_ok.mpr hf, ?_⟩
    rw [writeAsRoom_eq, hw, hp]
    split <;> rfl
  slice := fun buf out k q hk h => by
    have h' := liftRoom_ok.mp h
    rw [writeAsRoom_eq] at h'
    obtain ⟨file, hf, hk', hl, hr, ho⟩ := C95_slice_written _ buf out k q hk h'
    rw [writeAs_eq] at hf
    refine ⟨file, liftWrite_ok.mpr hf, hk', hl, ?_, ho⟩
    rw [h1, h2, C01_format_round_trip v file hf]
    simp only [readAsAt, hr, l.proj]
  exact := fun file h hl => by
    have h' := liftWrite_ok.mp h
    rw [← writeAs_eq] at h'
    have hb := C69_image _ file h'
    have hs : (t.inj v).image.stop < 2 ^ 64 := Nat.lt_of_le_of_lt (stop_le (ssbh_nice _)) (by
      have := next_eight_lt (n := (t.inj v).image.bytes.length) (k := 0) (by decide) (by rw [← hb]; omega)
      omega)
    obtain ⟨file', q, hf, hw, hn⟩ := C95_exact _ hs
    rw [h'] at hf
    cases hf
    refine ⟨⟨q, ?_⟩, fun buf hb => ?_⟩
    · rw [writeAsRoom_eq, hw]; rfl
    · rw [writeAsRoom_eq, hn buf hb]; rfl
  convert := fun n buf k => by
    cases writeAs v <;> cases writeAsRoom v n buf k <;> simp [liftWrite, liftRoom]
  other := fun n buf k e h => by
    rw [writeAsRoom_eq] at h
    cases h1 : (t.inj v).writeRoom n buf k with
    | ok _ => rw [h1] at h; cases h
    | error e' =>
      rw [h1] at h
      cases h
      rcases C95_errors _ _ _ _ _ h1 with rfl | rfl
      · exact .inr (.inl rfl)
      · exact .inr (.inr rfl)

theorem limited_error {read : Bytes → R} {readAt : Bytes → Nat → R} {p : Bool} :
    Limited (.error .convert) (fun _ _ => .error .convert) (fun _ _ _ => .error .convert) read readAt p where
  room := fun _ _ _ _ _ _ _ h => by cases h
  slice := fun _ _ _ _ _ h => by cases h
  exact := fun _ h => by cases h
  convert := fun _ _ _ => ⟨fun _ => rfl, fun _ => rfl⟩
  other := fun _ _ _ _ h => by cases h; exact .inl rfl

theorem C101_modl (d : ModlData) :
    Limited d.write d.writeStream d.writeRoom ModlData.read ModlData.readAt false :=
  limited_of d.toModl rfl (fun r => (liftRead r).map ModlData.ofModl) (fun _ => rfl) (fun _ _ => rfl)

theorem C101_hlpb (d : HlpbData) :
    Limited d.write d.writeStream d.writeRoom HlpbData.read HlpbData.readAt false :=
  limited_of d.toHlpb rfl (fun r => (liftRead r).map HlpbData.ofHlpb) (fun _ => rfl) (fun _ _ => rfl)

theorem C101_matl (d : MatlData) :
    Limited d.write d.writeStream d.writeRoom MatlData.read MatlData.readAt false := by
  unfold MatlData.write MatlData.writeStream MatlData.writeRoom
  cases d.toMatl with
  | error e => exact limited_error
  | ok f => exact limited_of f rfl (fun r => (liftRead r).map MatlData.ofMatl) (fun _ => rfl) (fun _ _ => rfl)

theorem C101_skel (O : MatOps Matrix4x4) (d : SkelData) :
    Limited (d.write O) (d.writeStream O) (d.writeRoom O) SkelData.read SkelData.readAt false := by
  unfold SkelData.write SkelData.writeStream SkelData.writeRoom
  cases d.toSkel O with
  | none => exact limited_error
  | some r =>
    cases r with
    | error e => exact limited_error
    | ok f => exact limited_of f rfl (fun r => (liftRead r).map SkelData.ofSkel) (fun _ => rfl) (fun _ _ => rfl)

/-- Animations of version 2.1 are padded, those of version 2.0 are not. Reading can panic; then it panics for the file
and for the memory. -/
theorem C101_anim (F : FloatOps) (order : List AnimData.GroupData → List AnimData.GroupData) (checks : Bool) (d : AnimData) :
    Limited (d.write F) (d.writeStream F) (d.writeRoom F) (AnimData.readAny F order checks)
      (AnimData.readAnyAt F order checks) (d.minor_version == 1) := by
  unfold AnimData.write AnimData.writeStream AnimData.writeRoom
  cases hc : AnimData.create F d with
  | error e => exact limited_error
  | ok a =>
    refine limited_of a ?_ (fun r =>
      match liftRead r with
      | .error e => some (.error e)
      | .ok (.V12 a) => (AnimData.ofV12 order checks a).map .ok
      | .ok a =>
        match AnimData.ofAnim F a with
        | none => none
        | some (.error .panic) => none
        | some (.error _) => some (.error .convert)
        | some (.ok d) => some (.ok d)) (fun b => ?_) (fun _ _ => rfl)
    · rw [AnimData.create_eq] at hc
      split at hc
      · rename_i hv
        split at hc
        · split at hc
          · rename_i h0
            cases hc
            rw [h0]
            rfl
          · rename_i h0
            cases hc
            rw [hv.2.resolve_left h0]
            rfl
        · cases hc
      · cases hc
    unfold AnimData.readAny AnimData.read
    cases readAs Anim b with
    | error e => rfl
    | ok x => cases x <;> rfl

/-- Meshes of all versions are padded. -/
theorem C101_mesh (F : FloatConv) (bounds : List (Vector F32 3) → Mesh.BoundingInfo) (d : MeshData) :
    Limited (d.write F bounds) (d.writeStream F bounds) (d.writeRoom F bounds) (MeshData.read F) (MeshData.readAt F)
      true := by
  unfold MeshData.write MeshData.writeStream MeshData.writeRoom
  cases MeshData.toMesh F bounds d with
  | error e => exact limited_error
  | ok m =>
    exact limited_of m rfl (fun r =>
      match liftRead r with
      | .error e => .error e
      | .ok m =>
        match MeshData.ofMesh F m with
        | .error _ => .error .convert
        | .ok d => .ok d) (fun _ => rfl) (fun _ _ => rfl)

/-! The two types without the container. -/

/-- MeshExData is padded to a multiple of 16, at any position. For fewer than 2^32 groups and flags. -/
theorem C101_meshex (sphereOf : List Mesh.BoundingSphere → Mesh.BoundingSphere) (d : MeshExData)
    (hg : d.mesh_object_groups.length < 2 ^ 32) (hf : (d.mesh_object_groups.map (·.entry_flags.length)).sum < 2 ^ 32) :
    (∀ (n : Nat) (buf out : Bytes) (k q : Nat), 16 ∣ k → d.writeStream sphereOf buf k = .ok (out, q) →
      ∃ file, d.write sphereOf = .ok file ∧ d.writeRoom sphereOf n buf k =
        if k + file.length ≤ n ∧ roundUp buf.length 16 ≤ n then .ok (out, q) else .error (.write .full)) ∧
    ∀ (buf out : Bytes) (k q : Nat), d.writeRoom sphereOf buf.length buf k = .ok (out, q) →
      16 ∣ buf.length ∧ out.length = buf.length ∧ MeshExData.readAt out k = .ok ⟨d.mesh_object_groups.map fun g =>
        { g with
          mesh_object_full_name := cutNul g.mesh_object_full_name
          mesh_object_name := cutNul g.mesh_object_name }⟩ := by
  refine ⟨fun n buf out k q hk h => ?_, fun buf out k q h => ?_⟩
  · obtain ⟨file, hfile, hw⟩ := C95_meshex_room _ n buf out k q hk (liftWrite_ok.mp h)
    refine ⟨file, by rw [MeshExData.write, hfile], ?_⟩
    rw [MeshExData.writeRoom, hw]
    split <;> rfl
  · have h' := liftRoom_ok.mp h
    obtain ⟨groups, entries, flags, e1, e2, e3, l1, _, l2, l3⟩ := C33_entries sphereOf d (Nat.le_of_lt hg)
    have hc : CountsFit (d.toMeshEx sphereOf) := by
      refine ⟨?_, ?_, ?_⟩
      · rw [e2]; simp only [countOf, Option.getD_some]; omega
      · rw [e3]; simp only [countOf, Option.getD_some]; omega
      · rw [e1]; simp only [countOf, Option.getD_some]; omega
    obtain ⟨h1, h2, h3, -⟩ := C95_meshex_slice _ buf out k q hc h'
    refine ⟨h1, h2, ?_⟩
    rw [MeshExData.readAt, h3, ← C33_round_trip sphereOf d (Nat.le_of_lt hg)]
    rfl

/-- AdjData at any position needs only the room up to its end. -/
theorem C101_adj (d : AdjData) (n : Nat) (buf : Bytes) (k : Nat) (hb : buf.length ≤ n) :
    ∃ file out, d.write = .ok file ∧ d.writeStream buf k = .ok (out, k + file.length) ∧ d.writeRoom n buf k =
      if k + file.length ≤ n then .ok (out, k + file.length) else .error (.write .full) := by
  obtain ⟨file, out, h1, h2, h3⟩ := C95_adj_room d.toAdj n buf k hb
  refine ⟨file, out, liftWrite_ok.mpr h1, liftWrite_ok.mpr h2, ?_⟩
  rw [AdjData.writeRoom, h3]
  split <;> rfl

/-- In memory of a fixed size the last entry gets the rest of the memory, so the data is read back only if at most
one byte follows it. Limits as in `C96_adj`. -/
theorem C101_adj_slice (es : List AdjEntryData) (e : AdjEntryData) (buf out : Bytes) (k q : Nat)
    (h : (⟨es ++ [e]⟩ : AdjData).writeRoom buf.length buf k = .ok (out, q)) (hn : es.length + 1 < 2 ^ 32)
    (hi : ∀ x ∈ es ++ [e], x.mesh_object_index < 2 ^ 32) (ho : 2 * adjTotal es < 2 ^ 32) :
    (∃ more : List Int16, more.flatMap (fun i => leBytes 2 i.toUInt16.toNat) = (buf.drop q).take ((buf.length - q) / 2 * 2) ∧
      AdjData.readAt out k = .ok ⟨es ++ [⟨e.mesh_object_index, e.vertex_adjacency ++ more⟩]⟩) ∧
    (AdjData.readAt out k = .ok ⟨es ++ [e]⟩ ↔ buf.length ≤ q + 1) := by
  obtain ⟨file, out', h1, h2, h3⟩ := C101_adj ⟨es ++ [e]⟩ buf.length buf k (Nat.le_refl _)
  rw [h] at h3
  split at h3
  rotate_left
  · cases h3
  cases h3
  obtain ⟨_, after, more, -, -, ha, -, hm, hr⟩ := C96_adj es e buf out [] k _ h2 hn hi ho
  rw [List.append_nil] at ha hr
  subst ha
  rw [List.length_drop] at hm
  refine ⟨⟨more, hm, hr⟩, ?_⟩
  have hl := congrArg List.length hm
  rw [List.length_take, List.length_drop, List.length_flatMap, show (fun i : Int16 => (leBytes 2 i.toUInt16.toNat).length) = fun _ => 2 from
    funext fun i => leBytes_length _ _, List.map_const', List.sum_replicate_nat] at hl
  rw [hr]
  constructor
  · intro he
    have : more = [] := by
      have := congrArg AdjEntryData.vertex_adjacency (show _ = e by simpa using he)
      simpa using this
    rw [this] at hl
    simp at hl
    omega
  · intro hq
    have : more = [] := List.length_eq_zero_iff.mp (by omega)
    rw [this, List.append_nil]

/-! Memory to which the theorems apply. -/

example : ∃ out q, sampleModl.writeRoom 500 (List.replicate 500 9) 48 = .ok (out, q) ∧ out.length = 500 ∧
    ModlData.readAt out 48 = .ok sampleModl ∧ out[47]? = some 9 := by
  obtain ⟨⟨out, q⟩, h⟩ := isOk_iff.mp (show isOk (sampleModl.writeRoom 500 (List.replicate 500 9) 48) = true by decide +kernel)
  obtain ⟨file, hw, -, hl, hr, ho⟩ := (C101_modl sampleModl).slice (List.replicate 500 9) out 48 q (by decide)
    (by rw [List.length_replicate]; exact h)
  refine ⟨out, q, h, by rw [hl, List.length_replicate], ?_, ho 47 9 (by decide) (.inl (by decide))⟩
  rw [hr, C45_modl _ _ hw, ← C32_round_trip, C32_identity _ (by decide) (by decide +kernel)]

example : isOk (sampleMatl.writeRoom 2000 (List.replicate 2000 9) 48) = true := by decide +kernel
example : isOk (sampleHlpb.writeRoom 2000 (List.replicate 2000 9) 48) = true := by decide +kernel
example : isOk (chainSkel.writeRoom countOps 2000 (List.replicate 2000 9) 48) = true := by decide +kernel
example : isOk (smallAnim.writeRoom simpleOps 1000 (List.replicate 1000 9) 48) = true := by decide +kernel
example : isOk (sampleMeshEx.writeRoom (fun _ => ⟨⟨0, 0, 0⟩, 0⟩) 1024 (List.replicate 1024 9) 49) = true := by decide +kernel
example : cyclicSkel.writeRoom countOps 16 (List.replicate 16 0) 0 = .error .convert := by decide +kernel

/-- A mesh in memory whose size is a multiple of 8, and no mesh in memory with one byte more. -/
example : isOk ((triangle 10).writeRoom exampleConv (MeshData.calculateBoundingInfo foldGeometry) 2000 (List.replicate 2000 9) 48) = true ∧
    (triangle 10).writeRoom exampleConv (MeshData.calculateBoundingInfo foldGeometry) 2001 (List.replicate 2001 9) 48 = .error (.write .full) := by
  decide +kernel

/-- Data of 24 bytes in memory of 24 and of 26 bytes. -/
example : ∃ out out' q q', (⟨[⟨1, [2, 3, 4, 5, 6, 7]⟩]⟩ : AdjData).writeRoom 24 (List.replicate 24 0) 0 = .ok (out, q) ∧
    AdjData.readAt out 0 = .ok ⟨[⟨1, [2, 3, 4, 5, 6, 7]⟩]⟩ ∧
    (⟨[⟨1, [2, 3, 4, 5, 6, 7]⟩]⟩ : AdjData).writeRoom 26 (List.replicate 26 0) 0 = .ok (out', q') ∧
    AdjData.readAt out' 0 = .ok ⟨[⟨1, [2, 3, 4, 5, 6, 7, 0]⟩]⟩ :=
  ⟨_, _, _, _, rfl, by decide +kernel, rfl, by decide +kernel⟩

end Verif.Props
