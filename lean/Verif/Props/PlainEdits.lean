import Verif.Props.Edits
import Verif.Derive.EditFacts
import Verif.Props.PlainFiles
/-!
# C93: small changes of the files without header
-/

namespace Verif.Props
open Verif Derive

theorem similar_prim {n : Nat} {toNat : α → Nat} {ofNat : Nat → Option α} [DecidableEq α] (x y : α) :
    Similar (prim n toNat ofNat) (changed n x y) x y := by
  refine ⟨rfl, fun j w w' hw => .ok ?_⟩
  unfold changed
  split
  · rename_i e; rw [e]; exact hw.put _
  · refine hw.puts (by rw [leBytes_length, leBytes_length]) ?_
    have := differences_le (leBytes n (toNat x)) (leBytes n (toNat y))
    rwa [leBytes_length, leBytes_length, Nat.max_self] at this

theorem similar_pair {a : Codec α} {b : Codec β} {x x' y y' k m} (h : Similar a k x x') (h' : Similar b m y y') :
    Similar (pair a b) (k + m) (x, y) (x', y') := by
  refine ⟨by simp only [pair, h.size, h'.size], fun j w w' hw => ?_⟩
  simp only [pair]
  have h1 := h.write j w w' hw
  revert h1
  generalize a.write x w = r
  generalize a.write x' w' = r'
  intro h1
  cases h1 with
  | error e => exact .error e
  | ok h1 =>
    rw [← Nat.add_assoc]
    exact h'.write _ _ _ h1

theorem similar_absPtr {c : Codec α} {f : α → α → Option Nat} (n : Nat) (hf : ∀ v v' k, f v v' = some k → Similar c k v v') {v v' : Option α}
    {k : Nat} (h : editOption f v v' = some k) : Similar (absPtr n c) k v v' := by
  match v, v', h with
  | none, none, h =>
    cases h
    exact ⟨rfl, fun j w w' hw => .ok ((hw.bump n).put _)⟩
  | some v, some v', h =>
    refine ⟨rfl, fun j w w' hw => ?_⟩
    simp only [absPtr]
    have h1 := hw.bump n
    rw [← h1.dp]
    have h2 := h1.setDp (roundUp (w.bump n).dp c.align)
    by_cases hd : (w'.bump n |>.setDp (roundUp (w.bump n).dp c.align)).dp < 256 ^ n
    · rw [if_pos hd, if_pos (show ((w.bump n).setDp (roundUp (w.bump n).dp c.align)).dp < 256 ^ n from hd)]
      have h3 := (h2.notePtr 0 c.align).put (leBytes n (roundUp (w.bump n).dp c.align))
      have h4 := (hf _ _ _ h).write _ _ _ (h3.seek (roundUp (w.bump n).dp c.align))
      have hp : (((w'.bump n).setDp (roundUp (w.bump n).dp c.align)).notePtr 0 c.align |>.put (leBytes n (roundUp (w.bump n).dp c.align))).pos =
        (((w.bump n).setDp (roundUp (w.bump n).dp c.align)).notePtr 0 c.align |>.put (leBytes n (roundUp (w.bump n).dp c.align))).pos := h3.pos.symm
      simp only [W.setDp_dp, W.put_dp, W.notePtr_dp, hp]
      revert h4
      generalize c.write v _ = r
      generalize c.write v' _ = r'
      intro h4
      cases h4 with
      | error e => exact .error e
      | ok h6 => exact .ok ((h6.pointPast _).seek _)
    · rw [if_neg hd, if_neg (show ¬ ((w.bump n).setDp (roundUp (w.bump n).dp c.align)).dp < 256 ^ n from hd)]
      exact .error _

def editVector3 (v v' : Vector3) : Nat := changed 4 v.x v'.x + (changed 4 v.y v'.y + changed 4 v.z v'.z)

def editSphere (v v' : Mesh.BoundingSphere) : Nat := editVector3 v.center v'.center + changed 4 v.radius v'.radius

def editName (v v' : Option CStr) : Option Nat := editOption (fun s s' : CStr => editBytes s.bytes s'.bytes) v v'

/-- The bytes that change in an `Adj`. -/
def editAdj (v v' : Adj) : Option Nat :=
  plus (editAll (fun e e' : Adj.AdjEntry => some (changed 4 e.mesh_object_index e'.mesh_object_index +
      changed 4 e.index_buffer_offset e'.index_buffer_offset)) v.entries v'.entries)
    (editAll (fun x x' => some (changed 2 x x')) v.index_buffer v'.index_buffer)

def editAllData (v v' : MeshEx.AllData) : Option Nat :=
  plus (some (editSphere v.bounding_sphere v'.bounding_sphere)) (editName v.name v'.name)

def editGroup (v v' : MeshEx.MeshObjectGroup) : Option Nat :=
  plus (some (editSphere v.bounding_sphere v'.bounding_sphere))
    (plus (editName v.mesh_object_full_name v'.mesh_object_full_name) (editName v.mesh_object_name v'.mesh_object_name))

def editEntry (v v' : MeshEx.MeshEntry) : Option Nat :=
  some (changed 4 v.mesh_object_group_index v'.mesh_object_group_index + editVector3 v.unk1 v'.unk1)

/-- The bytes that change in a `MeshEx`. -/
def editMeshEx (v v' : MeshEx) : Option Nat :=
  plus (editOption editAllData v.all_data v'.all_data) <|
  plus (editOption (editAll editGroup) v.mesh_object_groups v'.mesh_object_groups) <|
  plus (editOption (editAll editEntry) v.entries v'.entries) <|
  plus (editOption (editAll fun x x' => some (changed 2 x x')) v.entry_flags v'.entry_flags) (some (changed 4 v.unk1 v'.unk1))

/-! ## Proofs -/

theorem similar_iso {a : Codec α} {f : β → α} {g : α → β} {hg : ∀ v, g (f v) = v} {v v' : β} {k : Nat} (h : Similar a k (f v) (f v')) :
    Similar (iso a f g hg) k v v' := ⟨h.size, h.write⟩

theorem similar_u32 (x y : UInt32) : Similar u32 (changed 4 x y) x y := similar_prim x y

theorem similar_f32 (x y : F32) : Similar f32 (changed 4 x y) x y := similar_u32 x y

theorem similar_vector3 (v v' : Vector3) : Similar Vector3.codec (editVector3 v v') v v' :=
  .struct _ (similar_iso (similar_pair (similar_f32 _ _) (similar_pair (similar_f32 _ _) (similar_f32 _ _))))

theorem similar_sphere (v v' : Mesh.BoundingSphere) : Similar Mesh.BoundingSphere.codec (editSphere v v') v v' :=
  .struct _ (similar_iso (similar_pair (similar_vector3 _ _) (similar_f32 _ _)))

theorem similar_name (n : Nat) (v v' : Option CStr) (k : Nat) (h : editName v v' = some k) : Similar (absPtr 8 (cstring n)) k v v' :=
  similar_absPtr 8 (fun s s' k hk => by
    unfold editBytes at hk
    split at hk
    · cases hk; exact .refl_cstring ‹_›
    · cases hk) h

theorem similar_vecN {c : Codec α} {f : α → α → Option Nat} (n : Nat) (hf : ∀ v v' k, f v v' = some k → Similar c k v v') (vs vs' : List α)
    (k : Nat) (h : editAll f vs vs' = some k) : Similar (vecN n c) k vs vs' :=
  ⟨(elems_similar hf vs vs' k h).2.1, slice_similar hf h⟩

theorem similar_allData (v v' : MeshEx.AllData) (k : Nat) (h : editAllData v v' = some k) : Similar MeshEx.AllData.codec k v v' := by
  obtain ⟨_, y, hx, hy, rfl⟩ := plus_parts h
  cases hx
  exact .struct _ (similar_iso (similar_pair (similar_sphere _ _) (similar_name _ _ _ _ hy)))

theorem similar_group (v v' : MeshEx.MeshObjectGroup) (k : Nat) (h : editGroup v v' = some k) : Similar MeshEx.MeshObjectGroup.codec k v v' := by
  obtain ⟨_, _, hx, g, rfl⟩ := plus_parts h
  cases hx
  obtain ⟨y, z, hy, hz, rfl⟩ := plus_parts g
  exact .struct _ (similar_iso (similar_pair (similar_sphere _ _) (similar_pair (similar_name _ _ _ _ hy) (similar_name _ _ _ _ hz))))

theorem similar_entry (v v' : MeshEx.MeshEntry) (k : Nat) (h : editEntry v v' = some k) : Similar MeshEx.MeshEntry.codec k v v' := by
  cases h
  exact .struct _ (similar_iso (similar_pair (similar_prim _ _) (similar_vector3 _ _)))

theorem similar_flags (v v' : List UInt16) (k : Nat) (h : editAll (fun x x' => some (changed 2 x x')) v v' = some k) :
    Similar (MeshEx.flagsCodec 0) k v v' :=
  .struct _ (similar_vecN 0 (fun x x' k h => by cases h; exact .struct _ (similar_prim _ _)) _ _ _ h)

theorem len32_edit {f : α → α → Option Nat} {l l' : Option (List α)} {k : Nat} (h : editOption (editAll f) l l' = some k) :
    MeshEx.len32 l = MeshEx.len32 l' := by
  match l, l', h with
  | none, none, _ => rfl
  | some _, some _, h => simp only [MeshEx.len32, editAll_length h]

/-- C93 for `Adj`. -/
theorem C93_adj (v v' : Adj) (k : Nat) (h : editAdj v v' = some k) : CloseResults k v.write v'.write := by
  obtain ⟨x, y, hx, hy, rfl⟩ := plus_parts h
  have h1 := (Near.init.bump 48).put (leBytes 4 (UInt32.ofNat v.entries.length).toNat)
  have h2 := slice_similar (c := Adj.AdjEntry.codec) (fun e e' k h => by
    cases h; exact .struct _ (similar_iso (similar_pair (similar_prim _ _) (similar_prim _ _)))) hx _ _ _ h1
  have h3 := h2.bind (slice_similar (c := i16) (fun e e' k h => by cases h; exact similar_prim _ _) hy _)
  have h4 := NearR.close h3
  rw [Nat.zero_add] at h4
  unfold Adj.write Adj.ssbhWrite
  dsimp only
  rw [← editAll_length hx]
  exact h4

/-- C93 for `MeshEx`. -/
theorem C93_meshEx (v v' : MeshEx) (k : Nat) (h : editMeshEx v v' = some k) (b : Bytes) (hb : v.write = .ok b) :
    ∃ b', v'.write = .ok b' ∧ CloseBytes k b b' := by
  obtain ⟨k1, _, h1, g1, rfl⟩ := plus_parts h
  obtain ⟨k2, _, h2, g2, rfl⟩ := plus_parts g1
  obtain ⟨k3, _, h3, g3, rfl⟩ := plus_parts g2
  obtain ⟨k4, _, h4, h5, rfl⟩ := plus_parts g3
  cases h5
  have hr := similar_pair (similar_absPtr 8 similar_allData h1) <| similar_pair (similar_absPtr 8 (similar_vecN 0 similar_group) h2) <|
    similar_pair (similar_absPtr 8 (similar_vecN 0 similar_entry) h3) <| similar_pair (similar_absPtr 8 similar_flags h4) (similar_u32 v.unk1 v'.unk1)
  have hw := (similar_pair (similar_u32 (MeshEx.len32 v.entries) (MeshEx.len32 v.entries)) (similar_pair
    (similar_u32 (MeshEx.len32 v.mesh_object_groups) (MeshEx.len32 v.mesh_object_groups)) hr)).write 0 _ _ ((Near.init.bump 64).put (leBytes 8 0))
  have hw' : NearR (k1 + (k2 + (k3 + (k4 + changed 4 v.unk1 v'.unk1)))) ((pair u32 (pair u32 (MeshEx.rest 0 0))).write
        (MeshEx.len32 v.entries, MeshEx.len32 v.mesh_object_groups, v.all_data, v.mesh_object_groups, v.entries, v.entry_flags,
          v.unk1) ((W.init.bump 64).put (leBytes 8 0))) ((pair u32 (pair u32 (MeshEx.rest 0 0))).write
        (MeshEx.len32 v.entries, MeshEx.len32 v.mesh_object_groups, v'.all_data, v'.mesh_object_groups, v'.entries, v'.entry_flags,
          v'.unk1) ((W.init.bump 64).put (leBytes 8 0))) := by
    rw [changed, if_pos rfl, changed, if_pos rfl] at hw
    simp only [Nat.zero_add] at hw
    exact hw
  unfold MeshEx.write MeshEx.ssbhWrite at hb ⊢
  dsimp only at hb ⊢
  rw [← len32_edit h2, ← len32_edit h3, ← len32_edit h4]
  split_ifs at hb ⊢ with hc
  clear hw hr
  revert hw' hb
  generalize (pair u32 (pair u32 (MeshEx.rest 0 0))).write _ _ = r
  generalize (pair u32 (pair u32 (MeshEx.rest 0 0))).write _ _ = r'
  intro hw hb
  cases hw with
  | error e => cases hb
  | @ok w w' hn =>
    dsimp only at hb ⊢
    rw [← hn.buf]
    by_cases hs : roundUp w.buf.length 16 < 2 ^ 64
    · rw [if_pos hs] at hb ⊢
      cases hb
      have h6 := ((hn.alignEnd 16).seek 0).put (leBytes 8 (roundUp w.buf.length 16))
      exact ⟨_, rfl, h6.log.render.1.symm, h6.log.render.2⟩
    · rw [if_neg hs] at hb
      cases hb

example : editAdj ⟨[⟨0, 0⟩, ⟨1, 6⟩], [1, 2, 3, 4]⟩ ⟨[⟨0, 0⟩, ⟨2, 6⟩], [1, 2, -1, 4]⟩ = some 6 := by decide

example : ∃ b, exMeshEx.write = .ok b ∧ editMeshEx exMeshEx { exMeshEx with entry_flags := some [3, 2], unk1 := 6 } = some 6 := by
  obtain ⟨b, h⟩ : ∃ b, exMeshEx.write = .ok b := isOk_iff.mp (by decide +kernel)
  exact ⟨b, h, by decide⟩

end Verif.Props
