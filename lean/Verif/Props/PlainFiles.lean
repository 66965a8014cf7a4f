import Verif.Formats.MeshEx
import Verif.Formats.Adj
import Verif.Props.Pointers
import Verif.Props.Files
/-!
# Files without SSBH header: C15 (MeshEx), C17 (Adj)
-/

namespace Verif.Props
open Verif

/-! ## C15 -/

/-- The number of elements behind a pointer to a list. -/
def countOf (v : Option (List α)) : Nat := (v.getD []).length

theorem len32_toNat (v : Option (List α)) (h : countOf v < 2 ^ 32) : (MeshEx.len32 v).toNat = countOf v := by
  cases v with
  | none => rfl
  | some vs =>
    have h : vs.length < 2 ^ 32 := h
    simp only [MeshEx.len32, countOf, Option.getD_some, UInt32.toNat_ofNat']
    omega

/-- C15: different numbers of entries and flags are rejected before anything is written: the writer state in
the error is the initial one. -/
theorem C15_meshex_counts (v : MeshEx) (w : W) (h1 : countOf v.entries < 2 ^ 32)
    (h2 : countOf v.entry_flags < 2 ^ 32) (h : countOf v.entries ≠ countOf v.entry_flags) :
    v.ssbhWrite w = .error (.invalid, some w) := by
  simp only [MeshEx.ssbhWrite]
  rw [if_pos]
  intro he
  apply h
  rw [← len32_toNat _ h1, ← len32_toNat _ h2, he]

def exMeshEx : MeshEx where
  all_data := some ⟨⟨⟨1, 2, 3⟩, 4⟩, some ⟨[65, 66], by decide⟩⟩
  mesh_object_groups := some [⟨⟨⟨1, 2, 3⟩, 4⟩, some ⟨[65], by decide⟩, none⟩]
  entries := some [⟨0, ⟨1, 2, 3⟩⟩, ⟨0, ⟨4, 5, 6⟩⟩]
  entry_flags := some [3, 1]
  unk1 := 5

example : ∃ bytes, exMeshEx.write = .ok bytes := isOk_iff.mp (by decide +kernel)
example : countOf exMeshEx.entries ≠ countOf (some [(1 : UInt16)]) := by decide

/-- The final state of the writer of a MeshEx file. -/
theorem meshEx_write {v : MeshEx} {bytes : Bytes} (h : v.write = .ok bytes)
    (h1 : countOf v.entries < 2 ^ 32) (h2 : countOf v.entry_flags < 2 ^ 32) :
    ∃ N L pad : List Ev, ∃ size, ∃ zeros : Bytes,
      pad = [.data 0 (leBytes 8 (roundUp size 16)), .data size zeros] ∧
      size = (render (N ++ L)).length ∧ 16 ≤ size ∧
      zeros = List.replicate (roundUp size 16 - size) 0 ∧ roundUp size 16 < 2 ^ 64 ∧
      bytes = render (pad ++ (N ++ L)) ∧
      (pad ++ N).Pairwise Ev.disj ∧
      (∀ b, HasAll b N → (pair u32 (pair u32 (MeshEx.rest (countOf v.entries) (countOf v.mesh_object_groups)))).read b 8 =
          .ok ((MeshEx.len32 v.entries, MeshEx.len32 v.mesh_object_groups, v.all_data, v.mesh_object_groups, v.entries,
            v.entry_flags, v.unk1), 52)) ∧
      L = [.data 0 (leBytes 8 0), .obj 0 64] ∧
      ∃ w3, (pair u32 (pair u32 (MeshEx.rest 0 0))).write (MeshEx.len32 v.entries, MeshEx.len32 v.mesh_object_groups,
        v.all_data, v.mesh_object_groups, v.entries, v.entry_flags, v.unk1) ⟨L, 8, 64⟩ = .ok w3 ∧ w3.log = N ++ L := by
  simp only [MeshEx.write, MeshEx.ssbhWrite] at h
  split at h
  · cases h
  rename_i w4 h4
  cases h
  split at h4
  · cases h4
  rename_i hcount
  have hcount : MeshEx.len32 v.entries = MeshEx.len32 v.entry_flags := by simpa using hcount
  have hc : countOf v.entries = countOf v.entry_flags := by
    rw [← len32_toNat _ h1, ← len32_toNat _ h2, hcount]
  split at h4
  · cases h4
  rename_i w3 h3'
  split at h4
  rotate_left
  · cases h4
  rename_i hlt
  cases h4
  have hl := MeshEx.rest_lawfulAt v (ec := countOf v.entries) (gc := countOf v.mesh_object_groups)
    (by intro vs hvs; rw [hvs]; rfl) (by intro vs hvs; rw [hc, hvs]; rfl) (by intro vs hvs; rw [hvs]; rfl)
  have hl2 := pair_lawfulAt (MeshEx.fixed_of (c := u32) (MeshEx.len32 v.entries))
    (pair_lawfulAt (MeshEx.fixed_of (c := u32) (MeshEx.len32 v.mesh_object_groups)) hl)
  have hdp : ((W.init.bump 64).put (leBytes 8 0)).dp = 64 := rfl
  have hpos : ((W.init.bump 64).put (leBytes 8 0)).pos = 8 := rfl
  obtain ⟨N, s, r⟩ := hl2 _ w3 (fun _ => by rw [hdp, hpos]; show 8 + (4 + (4 + 36)) ≤ 64; decide) h3'
  rw [hpos] at r
  have hN : ∀ p bs, Ev.data p bs ∈ N → ∀ i, p ≤ i → i < p + bs.length → 8 ≤ i := by
    intro p bs hm i hi1 hi2
    have := s.cells _ hm i ⟨hi1, hi2⟩
    simp only [InR, hpos, hdp] at this
    omega
  have hw3 : w3.buf = render (N ++ ((W.init.bump 64).put (leBytes 8 0)).log) := by rw [W.buf, s.log]
  have hall : HasAll w3.buf N := Seg.hasAll s
  -- the four bytes of the first count
  have hsz : 16 ≤ w3.buf.length := by
    have hp := s.pos
    have := r _ hall
    simp only [pair] at this
    split at this
    · cases this
    rename_i x p1 hx
    split at this
    · cases this
    rename_i y p2 hy
    split at hy
    · cases hy
    rename_i z p3 hz
    have a1 := (prim_adv (n := 4) (toNat := UInt32.toNat) (ofNat := fun x => some (UInt32.ofNat x))
      (by decide)).adv
    simp only [u32, prim] at hx hz
    split at hx
    · cases hx
    rename_i _ q1 hx'
    split at hz
    · cases hz
    rename_i _ q2 hz'
    obtain ⟨_, _, rfl⟩ := readLe_ok hx'
    obtain ⟨hz1, _, _⟩ := readLe_ok hz'
    cases hx
    omega
  refine ⟨N, ((W.init.bump 64).put (leBytes 8 0)).log, _, w3.buf.length,
    List.replicate (roundUp w3.buf.length 16 - w3.buf.length) 0, rfl, ?_, hsz, rfl, hlt, ?_, ?_, r, rfl, w3, h3', s.log⟩
  · rw [hw3]
  · simp only [W.buf, W.put, W.seek, alignEnd, s.log]
    rfl
  · simp only [List.cons_append, List.nil_append, List.pairwise_cons, List.mem_cons]
    refine ⟨?_, ?_, s.disj⟩
    · rintro e (rfl | he)
      · simp only [Ev.disj, leBytes_length]
        omega
      · cases e with
        | data p bs =>
          simp only [Ev.disj, leBytes_length]
          intro i hi
          have := hN p bs he i hi.2.2.1 hi.2.2.2
          omega
        | ptr => trivial
        | obj => trivial
    · intro e he
      cases e with
      | data p bs =>
        simp only [Ev.disj]
        intro i hi
        have hne : bs ≠ [] := by rintro rfl; simp at hi; omega
        have := (hall _ _ he).length hne
        omega
      | ptr => trivial
      | obj => trivial

/-- C15: the length of a MeshEx file is a multiple of 16 and is stored in its first eight bytes, and the file is
read back. -/
theorem C15_meshex_file (v : MeshEx) (bytes : Bytes) (h : v.write = .ok bytes)
    (h1 : countOf v.entries < 2 ^ 32) (h2 : countOf v.entry_flags < 2 ^ 32)
    (h3 : countOf v.mesh_object_groups < 2 ^ 32) :
    bytes.length % 16 = 0 ∧ numAt 8 bytes 0 = some bytes.length ∧ MeshEx.read bytes = .ok v := by
  obtain ⟨N, L, pad, size, zeros, hpad, hsize, h16, hz, hlt, hbytes, hdisj, hr, -⟩ := meshEx_write h h1 h2
  have hle := le_roundUp (v := size) (n := 16) (by decide)
  have hlen : bytes.length = roundUp size 16 := by
    rw [hbytes, hpad]
    simp only [List.cons_append, List.nil_append, render, putAt_length, ← hsize]
    rw [if_neg (by intro h0; have := congrArg List.length h0; rw [leBytes_length] at this; cases this)]
    rw [leBytes_length]
    split
    · rename_i h0
      rw [hz] at h0
      have h0 := congrArg List.length h0
      simp only [List.length_replicate, List.length_nil] at h0
      omega
    · rw [hz, List.length_replicate]
      omega
  have hall : HasAll bytes (pad ++ N) := by
    rw [hbytes, ← List.append_assoc]
    exact render_hasAll_append hdisj
  have hfirst : HasAt bytes 0 (leBytes 8 (roundUp size 16)) := hall _ _ (by rw [hpad]; simp)
  have hread := hfirst.readLe (by rw [pow_256_8]; exact hlt)
  refine ⟨?_, ?_, ?_⟩
  · rw [hlen]
    exact Nat.mod_eq_zero_of_dvd (dvd_roundUp _ _)
  · rw [hlen]
    exact (readLe_numAt hread (by decide)).1
  · have hr := hr bytes hall.right
    simp only [pair] at hr
    simp only [MeshEx.read, pair]
    have hu64 : u64.read bytes 0 = .ok (UInt64.ofNat (roundUp size 16), 8) := by
      simp only [u64, prim, hread]
    rw [hu64]
    simp only
    split at hr
    · cases hr
    rename_i x p1 hx
    split at hr
    · cases hr
    rename_i y p2 hy
    split at hy
    · cases hy
    rename_i y' p3 hy'
    simp only
    split at hy
    · cases hy
    rename_i y'' p4 hy''
    cases hy
    cases hr
    rw [len32_toNat _ h1, len32_toNat _ h3, hy'']

/-! ## C17 -/

theorem writeElems_put {a : Codec α} {enc : α → Bytes}
    (hw : ∀ v (w : W), w.pos = w.buf.length → ∃ w', a.write v w = .ok w' ∧ w'.buf = w.buf ++ enc v ∧
      w'.pos = w'.buf.length) :
    ∀ (vs : List α) (w : W), w.pos = w.buf.length →
      ∃ w', writeElems a vs w = .ok w' ∧ w'.buf = w.buf ++ vs.flatMap enc ∧ w'.pos = w'.buf.length
  | [], w, hp => ⟨w, rfl, by simp, hp⟩
  | v :: vs, w, hp => by
    obtain ⟨w1, h1, hb, h3⟩ := hw v w hp
    obtain ⟨w', e1, e2, e3⟩ := writeElems_put hw vs w1 h3
    exact ⟨w', by simp [writeElems, h1, e1], by rw [e2, hb]; simp, e3⟩

/-- The bytes of an Adj file: count, entries, indices. -/
def adjBytes (v : Adj) : Bytes :=
  leBytes 4 v.entries.length ++
    (v.entries.flatMap (fun e => leBytes 4 e.mesh_object_index.toNat ++ leBytes 4 e.index_buffer_offset.toNat) ++
    v.index_buffer.flatMap (fun i => leBytes 2 i.toUInt16.toNat))

theorem leBytes_mod : ∀ (n x : Nat), leBytes n (x % 256 ^ n) = leBytes n x
  | 0, x => rfl
  | n + 1, x => by
    simp only [leBytes]
    congr 1
    · apply UInt8.toNat_inj.mp
      simp only [UInt8.toNat_ofNat', Nat.pow_succ]
      rw [Nat.mul_comm, Nat.mod_mul_right_mod]
    · rw [Nat.pow_succ, Nat.mul_comm, Nat.mod_mul_right_div_self]
      exact leBytes_mod n _

/-- Writing an Adj never fails and gives the count (modulo 2^32), the entries and the indices. -/
theorem C17_adj_written (v : Adj) : v.write = .ok (adjBytes v) := by
  have hu : ∀ (bs : Bytes) (w : W), bs ≠ [] → w.pos = w.buf.length →
      (w.put bs).buf = w.buf ++ bs ∧ (w.put bs).pos = (w.put bs).buf.length := by
    intro bs w hne h
    have e : (w.put bs).buf = w.buf ++ bs := by
      show putAt (render w.log) w.pos bs = _
      rw [h]
      simp [putAt, hne, W.buf]
    refine ⟨e, ?_⟩
    rw [e, List.length_append, ← h]
    rfl
  obtain ⟨w1, h1⟩ : ∃ w1, w1 = ((W.init.bump 48).put (leBytes 4 (UInt32.ofNat v.entries.length).toNat)) := ⟨_, rfl⟩
  have hb1 : w1.buf = leBytes 4 v.entries.length := by
    rw [h1, (hu _ _ (by simp [leBytes]) rfl).1]
    have : (UInt32.ofNat v.entries.length).toNat = v.entries.length % 256 ^ 4 := by simp
    rw [this, leBytes_mod]
    rfl
  have hp1 : w1.pos = w1.buf.length := by
    rw [hb1, h1]
    simp [leBytes_length, W.init]
  obtain ⟨w2, e2, hb2, hp2⟩ := writeElems_put (a := Adj.AdjEntry.codec)
    (enc := fun e => leBytes 4 e.mesh_object_index.toNat ++ leBytes 4 e.index_buffer_offset.toNat)
    (by
      intro e w hp
      obtain ⟨a1, a2⟩ := hu (leBytes 4 e.mesh_object_index.toNat) (w.bump 8) (by simp [leBytes]) hp
      obtain ⟨b1, b2⟩ := hu (leBytes 4 e.index_buffer_offset.toNat) _ (by simp [leBytes]) a2
      refine ⟨_, rfl, ?_, b2⟩
      refine b1.trans ?_
      rw [a1, List.append_assoc]
      rfl)
    v.entries (w1.bump (sliceSize Adj.AdjEntry.codec v.entries)) hp1
  obtain ⟨w3, e3, hb3, hp3⟩ := writeElems_put (a := i16) (enc := fun i => leBytes 2 i.toUInt16.toNat)
    (by
      intro e w hp
      obtain ⟨a1, a2⟩ := hu (leBytes 2 e.toUInt16.toNat) w (by simp [leBytes]) hp
      exact ⟨_, rfl, a1, a2⟩)
    v.index_buffer (w2.bump (sliceSize i16 v.index_buffer)) hp2
  have hbw : ∀ n (w : W), (w.bump n).buf = w.buf := fun n w => rfl
  simp only [Adj.write, Adj.ssbhWrite, u32, prim, ← h1]
  simp only [writeSlice, e2, e3]
  rw [hb3, hbw, hb2, hbw, hb1]
  simp [adjBytes]

/-- C17: the written file is read back, for fewer than 2^32 entries. -/
theorem C17_adj_round_trip (v : Adj) (hlen : v.entries.length < 2 ^ 32) (bytes : Bytes) (h : v.write = .ok bytes) :
    Adj.read bytes = .ok v := by
  rw [C17_adj_written] at h
  cases h
  have hcount : u32.read (adjBytes v) 0 = .ok (UInt32.ofNat v.entries.length, 4) := by
    have : HasAt (adjBytes v) 0 (leBytes 4 v.entries.length) := by
      intro i hi
      rw [Nat.zero_add, adjBytes, List.getElem?_append_left hi, List.getElem?_eq_getElem hi]
    simp only [u32, prim, this.readLe (by simpa using hlen)]
  have hentry : ∀ (pre : Bytes) (e : Adj.AdjEntry) (post : Bytes),
      Adj.AdjEntry.codec.read (pre ++ (leBytes 4 e.mesh_object_index.toNat ++ leBytes 4 e.index_buffer_offset.toNat ++ post))
        pre.length = .ok (e, pre.length + 8) := by
    intro pre e post
    have g1 : HasAt (pre ++ (leBytes 4 e.mesh_object_index.toNat ++ leBytes 4 e.index_buffer_offset.toNat ++ post))
        pre.length (leBytes 4 e.mesh_object_index.toNat) := by
      intro i hi
      rw [List.getElem?_append_right (by omega), Nat.add_sub_cancel_left, List.append_assoc,
        List.getElem?_append_left hi, List.getElem?_eq_getElem hi]
    have g2 : HasAt (pre ++ (leBytes 4 e.mesh_object_index.toNat ++ leBytes 4 e.index_buffer_offset.toNat ++ post))
        (pre.length + 4) (leBytes 4 e.index_buffer_offset.toNat) := by
      intro i hi
      rw [List.getElem?_append_right (by omega), List.append_assoc,
        List.getElem?_append_right (by rw [leBytes_length]; omega), leBytes_length,
        List.getElem?_append_left (by omega), List.getElem?_eq_getElem (by omega)]
      congr 2
      omega
    have r1 := g1.readLe (by simpa using e.mesh_object_index.toNat_lt)
    have r2 := g2.readLe (by simpa using e.index_buffer_offset.toNat_lt)
    simp only [Adj.AdjEntry.codec, struct, iso, pair, u32, prim, r1, r2, UInt32.ofNat_toNat]
  have hentries : ∀ (es : List Adj.AdjEntry) (pre post : Bytes),
      readElems Adj.AdjEntry.codec es.length
        (pre ++ (es.flatMap (fun e => leBytes 4 e.mesh_object_index.toNat ++ leBytes 4 e.index_buffer_offset.toNat) ++ post))
        pre.length = .ok (es, pre.length + es.length * 8) := by
    intro es
    induction es with
    | nil => intro pre post; simp [readElems]
    | cons e es ih =>
      intro pre post
      have h1 := hentry pre e (es.flatMap (fun e => leBytes 4 e.mesh_object_index.toNat ++ leBytes 4 e.index_buffer_offset.toNat) ++ post)
      have h2 := ih (pre ++ (leBytes 4 e.mesh_object_index.toNat ++ leBytes 4 e.index_buffer_offset.toNat)) post
      simp only [List.length_append, leBytes_length, List.append_assoc] at h1 h2
      simp only [List.length_cons, readElems, List.flatMap_cons, List.append_assoc, h1, h2]
      simp only [Except.ok.injEq, Prod.mk.injEq, true_and]
      omega
  have hidx : ∀ (is : List Int16), Adj.readI16s (is.flatMap (fun i => leBytes 2 i.toUInt16.toNat)) = is := by
    intro is
    induction is with
    | nil => rfl
    | cons i is ih =>
      have e : leBytes 2 i.toUInt16.toNat = [UInt8.ofNat i.toUInt16.toNat, UInt8.ofNat (i.toUInt16.toNat / 256)] := rfl
      rw [List.flatMap_cons, e]
      simp only [List.cons_append, List.nil_append, Adj.readI16s, ih]
      congr 1
      have h2 := fromLe_leBytes 2 i.toUInt16.toNat
      rw [e] at h2
      rw [h2, Nat.mod_eq_of_lt (by simpa using i.toUInt16.toNat_lt)]
      simp
  have hl : ∀ es : List Adj.AdjEntry, (es.flatMap (fun e => leBytes 4 e.mesh_object_index.toNat ++
      leBytes 4 e.index_buffer_offset.toNat)).length = es.length * 8 := by
    intro es
    induction es with
    | nil => rfl
    | cons e es ih => simp only [List.flatMap_cons, List.length_append, leBytes_length, ih, List.length_cons]; omega
  have hn : (UInt32.ofNat v.entries.length).toNat = v.entries.length := by
    simp only [UInt32.toNat_ofNat']; omega
  simp only [Adj.read, hcount, hn]
  have he := hentries v.entries (leBytes 4 v.entries.length) (v.index_buffer.flatMap (fun i => leBytes 2 i.toUInt16.toNat))
  rw [leBytes_length] at he
  rw [show adjBytes v = _ from rfl, adjBytes, he]
  simp only
  rw [← List.drop_drop, List.drop_left' (leBytes_length _ _), List.drop_left' (hl _), hidx]

example : ∃ bytes, (⟨[⟨1, 0⟩, ⟨2, 4⟩], [1, -1, 5]⟩ : Adj).write = .ok bytes := ⟨_, C17_adj_written _⟩

end Verif.Props
