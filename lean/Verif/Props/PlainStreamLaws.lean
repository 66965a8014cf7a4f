import Verif.Props.PlainFiles
import Verif.Props.Streams
/-!
# Facts about MeshEx and Adj in the middle of a stream
-/

namespace Verif

/-- `MeshEx::write` with a `Cursor<Vec<u8>>` which holds `buf` and stands at `pos`: the content and the position
afterwards. /repo/ssbh_lib/src/lib.rs:284-287, /repo/ssbh_write/src/lib.rs:53-57 (the data pointer begins with 0). -/
def MeshEx.writeStream (v : MeshEx) (buf : Bytes) (pos : Nat) : Except WErr (Bytes × Nat) :=
  match v.ssbhWrite ⟨[.data 0 buf], pos, 0⟩ with
  | .error e => .error e.1
  | .ok w => .ok (w.buf, w.pos)

/-- `MeshEx::read` from a stream which stands at `p`; the pointers are positions in the stream
(`Ptr64`, /repo/ssbh_lib/src/lib.rs:362-390). /repo/ssbh_lib/src/lib.rs:277-282, /repo/ssbh_lib/src/formats/meshex.rs:17-41. -/
def MeshEx.readAt (b : Bytes) (p : Nat) : Except RErr MeshEx :=
  match (pair u64 (pair u32 u32)).read b p with
  | .error e => .error e
  | .ok ((_, entryCount, groupCount), p) =>
    match (MeshEx.rest entryCount.toNat groupCount.toNat).read b p with
    | .error e => .error e
    | .ok ((allData, groups, entries, flags, unk1), _) => .ok ⟨allData, groups, entries, flags, unk1⟩

/-- `Adj::write` with a `Cursor<Vec<u8>>` which holds `buf` and stands at `pos`, as for MeshEx. -/
def Adj.writeStream (v : Adj) (buf : Bytes) (pos : Nat) : Except WErr (Bytes × Nat) :=
  match v.ssbhWrite ⟨[.data 0 buf], pos, 0⟩ with
  | .error e => .error e
  | .ok w => .ok (w.buf, w.pos)

/-- `Adj::read` from a stream which stands at `p`: /repo/ssbh_lib/src/lib.rs:277-282,
/repo/ssbh_lib/src/formats/adj.rs:17-43; the indices are read up to the end of the stream. -/
def Adj.readAt (b : Bytes) (p : Nat) : Except RErr Adj :=
  match u32.read b p with
  | .error e => .error e
  | .ok (count, p) =>
    match readElems AdjEntry.codec count.toNat b p with
    | .error e => .error e
    | .ok (entries, p) => .ok ⟨entries, readI16s (b.drop p)⟩

end Verif

namespace Verif.Props
open Verif

theorem meshEx_readAt_zero (b : Bytes) : MeshEx.readAt b 0 = MeshEx.read b := rfl
theorem adj_readAt_zero (b : Bytes) : Adj.readAt b 0 = Adj.read b := rfl

/-- The final state of the writer of a MeshEx file in a stream. -/
theorem meshEx_stream {v : MeshEx} {buf out : Bytes} {k q : Nat} (h : v.writeStream buf k = .ok (out, q))
    (h1 : countOf v.entries < 2 ^ 32) (h2 : countOf v.entry_flags < 2 ^ 32) :
    ∃ (N : List Ev) (size : Nat),
      size = (render (N ++ [.data k (leBytes 8 0), .obj k 64, .data 0 buf])).length ∧ k + 16 ≤ size ∧
      roundUp size 16 < 2 ^ 64 ∧ q = 8 ∧
      out = render (([.data 0 (leBytes 8 (roundUp size 16)),
        .data size (List.replicate (roundUp size 16 - size) 0)] ++ N) ++
          [.data k (leBytes 8 0), .obj k 64, .data 0 buf]) ∧
      ([Ev.data 0 (leBytes 8 (roundUp size 16)),
        .data size (List.replicate (roundUp size 16 - size) 0)] ++ N).Pairwise Ev.disj ∧
      (∀ i, Covered N i → k + 8 ≤ i) ∧
      (∀ b, HasAll b N → (pair u32 (pair u32 (MeshEx.rest (countOf v.entries) (countOf v.mesh_object_groups)))).read b
          (k + 8) = .ok ((MeshEx.len32 v.entries, MeshEx.len32 v.mesh_object_groups, v.all_data, v.mesh_object_groups,
            v.entries, v.entry_flags, v.unk1), k + 52)) := by
  simp only [MeshEx.writeStream, MeshEx.ssbhWrite] at h
  split at h
  · cases h
  rename_i w4 h4
  cases h
  split at h4
  · cases h4
  rename_i hcount
  have hcount : MeshEx.len32 v.entries = MeshEx.len32 v.entry_flags := by simpa using hcount
  have hc : countOf v.entries = countOf v.entry_flags := by
    rw [← len32_toNat _ h1, ← len32_toNat _ h2, hcount]
  split at h4
  · cases h4
  rename_i w3 h3'
  split at h4
  rotate_left
  · cases h4
  rename_i hlt
  cases h4
  have hl := MeshEx.rest_lawfulAt v (ec := countOf v.entries) (gc := countOf v.mesh_object_groups)
    (by intro vs hvs; rw [hvs]; rfl) (by intro vs hvs; rw [hc, hvs]; rfl) (by intro vs hvs; rw [hvs]; rfl)
  have hl2 := pair_lawfulAt (MeshEx.fixed_of (c := u32) (MeshEx.len32 v.entries))
    (pair_lawfulAt (MeshEx.fixed_of (c := u32) (MeshEx.len32 v.mesh_object_groups)) hl)
  have hw0 : ((⟨[.data 0 buf], k, 0⟩ : W).bump 64).put (leBytes 8 0) =
      ⟨[.data k (leBytes 8 0), .obj k 64, .data 0 buf], k + 8, k + 64⟩ := by
    simp [W.bump, W.put, leBytes_length]
  rw [hw0] at h3'
  obtain ⟨N, s, r⟩ := hl2 _ w3 (fun _ => by show k + 8 + (4 + (4 + 36)) ≤ k + 64; omega) h3'
  have hN : ∀ i, Covered N i → k + 8 ≤ i := by
    rintro i ⟨p, bs, hm, hi1, hi2⟩
    have := s.cells _ hm i ⟨hi1, hi2⟩
    simp only [InR] at this
    omega
  have hall : HasAll w3.buf N := Seg.hasAll s
  have hsz : k + 16 ≤ w3.buf.length := by
    have := r _ hall
    simp only [pair] at this
    split at this
    · cases this
    rename_i x p1 hx
    split at this
    · cases this
    rename_i y p2 hy
    split at hy
    · cases hy
    rename_i z p3 hz
    simp only [u32, prim] at hx hz
    split at hx
    · cases hx
    rename_i _ q1 hx'
    split at hz
    · cases hz
    rename_i _ q2 hz'
    obtain ⟨_, _, rfl⟩ := readLe_ok hx'
    obtain ⟨hz1, _, _⟩ := readLe_ok hz'
    cases hx
    omega
  refine ⟨N, w3.buf.length, ?_, hsz, hlt, ?_, ?_, ?_, hN, r⟩
  · rw [W.buf, s.log]
  · simp [W.put, W.seek, leBytes_length]
  · simp only [W.buf, W.put, W.seek, alignEnd, s.log]
    rfl
  · simp only [List.cons_append, List.nil_append, List.pairwise_cons, List.mem_cons]
    refine ⟨?_, ?_, s.disj⟩
    · rintro e (rfl | he)
      · simp only [Ev.disj, leBytes_length]
        omega
      · cases e with
        | data p bs =>
          simp only [Ev.disj, leBytes_length]
          intro i hi
          have := hN i ⟨p, bs, he, hi.2.2⟩
          omega
        | ptr => trivial
        | obj => trivial
    · intro e he
      cases e with
      | data p bs =>
        simp only [Ev.disj]
        intro i hi
        have hne : bs ≠ [] := by rintro rfl; simp at hi; omega
        have := (hall _ _ he).length hne
        omega
      | ptr => trivial
      | obj => trivial

theorem meshEx_stream_length {N : List Ev} {k size : Nat} {buf : Bytes}
    (hsize : size = (render (N ++ [.data k (leBytes 8 0), .obj k 64, .data 0 buf])).length) (h16 : k + 16 ≤ size) :
    (render (([.data 0 (leBytes 8 (roundUp size 16)),
        .data size (List.replicate (roundUp size 16 - size) 0)] ++ N) ++
          [.data k (leBytes 8 0), .obj k 64, .data 0 buf])).length = roundUp size 16 := by
  have hle := le_roundUp (v := size) (n := 16) (by decide)
  simp only [List.cons_append, List.nil_append, render, putAt_length, ← hsize]
  rw [if_neg (by intro h0; have := congrArg List.length h0; rw [leBytes_length] at this; cases this)]
  rw [leBytes_length]
  split
  · rename_i h0
    have h0 := congrArg List.length h0
    simp only [List.length_replicate, List.length_nil] at h0
    omega
  · rw [List.length_replicate]
    omega

/-- What a MeshEx file in a stream is read from: everything but its length. -/
theorem meshEx_stream_read {v : MeshEx} {buf out b : Bytes} {k q : Nat} (h : v.writeStream buf k = .ok (out, q))
    (h1 : countOf v.entries < 2 ^ 32) (h2 : countOf v.entry_flags < 2 ^ 32) (h3 : countOf v.mesh_object_groups < 2 ^ 32)
    (hb : ∀ i x, k + 8 ≤ i → out[i]? = some x → b[i]? = some x) : MeshEx.readAt b k = .ok v := by
  obtain ⟨N, size, hsize, h16, hlt, -, hout, hdisj, hN, hr⟩ := meshEx_stream h h1 h2
  have hall : HasAll b N := by
    intro p bs hm i hi
    have h0 : HasAt out p bs := by
      rw [hout]
      exact render_hasAll_append hdisj p bs (List.mem_append_right _ hm)
    exact hb _ _ (hN _ ⟨p, bs, hm, by omega, by omega⟩) (h0 i hi)
  have hlen : k + 16 ≤ b.length := by
    have e := meshEx_stream_length hsize h16
    rw [← hout] at e
    have hle := le_roundUp (v := size) (n := 16) (by decide)
    have hk : k + 15 < out.length := by omega
    have := hb (k + 15) _ (by omega) (List.getElem?_eq_getElem hk)
    have := (List.getElem?_eq_some_iff.mp this).1
    omega
  have hr := hr b hall
  obtain ⟨x, hu64⟩ : ∃ x, u64.read b k = .ok (x, k + 8) := by
    simp only [u64, prim, readLe, readBytes]
    rw [if_pos (by omega)]
    exact ⟨_, rfl⟩
  simp only [pair] at hr
  simp only [MeshEx.readAt, pair, hu64]
  split at hr
  · cases hr
  rename_i x p1 hx
  split at hr
  · cases hr
  rename_i y p2 hy
  split at hy
  · cases hy
  rename_i y' p3 hy'
  simp only
  split at hy
  · cases hy
  rename_i y'' p4 hy''
  cases hy
  cases hr
  rw [len32_toNat _ h1, len32_toNat _ h3, hy'']

theorem render_le_append : ∀ (M L : List Ev), (render L).length ≤ (render (M ++ L)).length
  | [], L => Nat.le_refl _
  | .ptr .. :: M, L => render_le_append M L
  | .obj .. :: M, L => render_le_append M L
  | .data p bs :: M, L => by
    have := render_le_append M L
    show _ ≤ (putAt (render (M ++ L)) p bs).length
    rw [putAt_length]
    split <;> omega

/-- The bytes which a MeshEx file leaves as they were. -/
theorem meshEx_stream_old {v : MeshEx} {buf out : Bytes} {k q : Nat} (h : v.writeStream buf k = .ok (out, q))
    (h1 : countOf v.entries < 2 ^ 32) (h2 : countOf v.entry_flags < 2 ^ 32) {i : Nat} (h8 : 8 ≤ i) (hi : i < k + 8) :
    out[i]? = some (if i < k then buf[i]?.getD 0 else 0) := by
  obtain ⟨N, size, hsize, h16, hlt, hq, hout, hdisj, hN, -⟩ := meshEx_stream h h1 h2
  have hlen := meshEx_stream_length hsize h16
  have hL : ∀ j : Nat, (render [.data k (leBytes 8 0), .obj k 64, .data 0 buf])[j]? = (putAt (render [.data 0 buf]) k (leBytes 8 0))[j]? :=
    fun _ => rfl
  have hin : i < (render [.data k (leBytes 8 0), .obj k 64, .data 0 buf]).length := by
    show i < (putAt (render [.data 0 buf]) k (leBytes 8 0)).length
    rw [putAt_length, if_neg (by simp [leBytes]), leBytes_length]
    omega
  rw [hout, render_append_get hin, hL, getElem?_putAt, render_single, leBytes_length]
  · by_cases hk : i < k
    · rw [if_neg (by omega), if_pos hk]
      split
      · rw [List.getElem?_eq_none (by omega)]; rfl
      · have : i < buf.length := by
          rename_i hn
          simp only [leBytes] at hn
          simp at hn
          omega
        rw [List.getElem?_eq_getElem this]; rfl
    · rw [if_pos (by omega), if_neg hk]
      have hz : ∀ j, j < 8 → (leBytes 8 0)[j]? = some 0 := by decide
      exact hz _ (by omega)
  · rintro ⟨p, bs, hm, hp, hp'⟩
    simp only [List.cons_append, List.nil_append, List.mem_cons] at hm
    rcases hm with hm | hm | hm
    · cases hm
      rw [leBytes_length] at hp'
      omega
    · cases hm
      omega
    · have := hN i ⟨p, bs, hm, hp, hp'⟩
      omega

/-- What an SSBH file in a stream is read from. -/
theorem ssbh_stream_read {s : Ssbh} {buf out b : Bytes} {k q : Nat} (hk : 16 ∣ k) (h : s.writeStream buf k = .ok (out, q))
    (hb : ∀ i x, k ≤ i → out[i]? = some x → b[i]? = some x) : Ssbh.readAt b k = .ok s := by
  obtain ⟨α, t, v, hf⟩ := ssbh_facts s
  obtain ⟨w0, h1, rfl, _⟩ := hf.write h
  have l := hf.law
  have lf := l.law
  obtain ⟨N, hs, p, hr⟩ := LawFormat.bodyTo h1
  have hall : HasAll b (N ++ headerAt k t.format.magic (t.format.version v).1 (t.format.version v).2) := by
    intro p bs hm i hi
    have h0 : HasAt (w0.buf ++ List.replicate (roundUp w0.buf.length (t.format.alignAfter v) - w0.buf.length) 0) p bs := by
      refine HasAt.append ?_
      rw [W.buf, hs.log]
      exact render_hasAll_append hs.disj _ _ hm
    refine hb _ _ ?_ (h0 i hi)
    have := hs.cells _ hm (p + i) ⟨by omega, by omega⟩
    simp only [InR] at this
    omega
  obtain ⟨e1, e2, e3⟩ := headerAt_read lf.magic hk hall.right
  rw [Ssbh.readAt, e1]
  simp only [l.readDataAt, Format.readVersioned, e2, e3, UInt16.ofNat_toNat, hr _ hall.left, wrap]
  rw [hf.eq]

/-! ## Adj -/

theorem putAt_put (buf bs cs : Bytes) (k : Nat) : putAt (putAt buf k bs) (k + bs.length) cs = putAt buf k (bs ++ cs) := by
  by_cases hb : bs = []
  · subst hb
    simp [putAt]
  by_cases hc : cs = []
  · subst hc
    simp [putAt]
  have hl : ((buf ++ List.replicate (k - buf.length) 0).take k).length = k := by simp; omega
  simp only [putAt, if_neg hb, if_neg hc, if_neg (show ¬ bs ++ cs = [] from fun h => hb (List.append_eq_nil_iff.mp h).1)]
  generalize (buf ++ List.replicate (k - buf.length) 0).take k = F at hl
  subst hl
  have e : F.length + bs.length - (F ++ bs ++ buf.drop (F.length + bs.length)).length = 0 := by simp
  rw [e, List.replicate_zero, List.append_nil, List.take_left' (by simp), List.append_assoc F bs cs,
    ← List.drop_drop, List.drop_left' (by simp), List.drop_drop, List.length_append, Nat.add_assoc]

/-- What was written from position `k` on. -/
def WroteFrom (buf : Bytes) (k : Nat) (bs : Bytes) (w : W) : Prop := w.buf = putAt buf k bs ∧ w.pos = k + bs.length

theorem WroteFrom.put {buf bs : Bytes} {k : Nat} {w : W} (h : WroteFrom buf k bs w) (cs : Bytes) :
    WroteFrom buf k (bs ++ cs) (w.put cs) := by
  refine ⟨?_, ?_⟩
  · show putAt w.buf w.pos cs = _
    rw [h.1, h.2, putAt_put]
  · show w.pos + cs.length = _
    rw [h.2, List.length_append, Nat.add_assoc]

theorem WroteFrom.bump {buf bs : Bytes} {k : Nat} {w : W} (h : WroteFrom buf k bs w) (n : Nat) : WroteFrom buf k bs (w.bump n) := h

theorem WroteFrom.elems {a : Codec α} {enc : α → Bytes} {buf : Bytes} {k : Nat}
    (hw : ∀ v bs (w : W), WroteFrom buf k bs w → ∃ w', a.write v w = .ok w' ∧ WroteFrom buf k (bs ++ enc v) w') :
    ∀ (vs : List α) (bs : Bytes) (w : W), WroteFrom buf k bs w →
      ∃ w', writeElems a vs w = .ok w' ∧ WroteFrom buf k (bs ++ vs.flatMap enc) w'
  | [], bs, w, h => ⟨w, rfl, by simpa using h⟩
  | v :: vs, bs, w, h => by
    obtain ⟨w1, e1, h1⟩ := hw v bs w h
    obtain ⟨w', e2, h2⟩ := WroteFrom.elems hw vs _ w1 h1
    exact ⟨w', by simp [writeElems, e1, e2], by simpa using h2⟩

theorem adj_stream (v : Adj) (buf : Bytes) (k : Nat) :
    v.writeStream buf k = .ok (putAt buf k (adjBytes v), k + (adjBytes v).length) := by
  have h0 : WroteFrom buf k [] ⟨[.data 0 buf], k, 0⟩ := by
    refine ⟨?_, rfl⟩
    show putAt [] 0 buf = _
    by_cases h : buf = [] <;> simp [putAt, h]
  obtain ⟨w2, e2, h2⟩ := WroteFrom.elems (a := Adj.AdjEntry.codec)
    (enc := fun e => leBytes 4 e.mesh_object_index.toNat ++ leBytes 4 e.index_buffer_offset.toNat)
    (fun e bs w h => ⟨_, rfl, by rw [← List.append_assoc]; exact ((h.bump 8).put _).put _⟩) v.entries _ _
    (((h0.bump 48).put (leBytes 4 (UInt32.ofNat v.entries.length).toNat)).bump (sliceSize Adj.AdjEntry.codec v.entries))
  obtain ⟨w3, e3, h3⟩ := WroteFrom.elems (a := i16) (enc := fun i => leBytes 2 i.toUInt16.toNat)
    (fun e bs w h => ⟨_, rfl, h.put _⟩) v.index_buffer _ _ (h2.bump (sliceSize i16 v.index_buffer))
  have hn : leBytes 4 (UInt32.ofNat v.entries.length).toNat = leBytes 4 v.entries.length := by
    have : (UInt32.ofNat v.entries.length).toNat = v.entries.length % 256 ^ 4 := by simp
    rw [this, leBytes_mod]
  simp only [hn, List.nil_append, List.append_assoc] at h3
  simp only [Adj.writeStream, Adj.ssbhWrite, u32, prim, writeSlice, e2, e3]
  rw [h3.1, h3.2]
  rfl

theorem readI16s_append : ∀ (is : List Int16) (rest : Bytes),
    Adj.readI16s (is.flatMap (fun i => leBytes 2 i.toUInt16.toNat) ++ rest) = is ++ Adj.readI16s rest
  | [], rest => rfl
  | i :: is, rest => by
    have e : leBytes 2 i.toUInt16.toNat = [UInt8.ofNat i.toUInt16.toNat, UInt8.ofNat (i.toUInt16.toNat / 256)] := rfl
    rw [List.flatMap_cons, e]
    simp only [List.cons_append, List.nil_append, Adj.readI16s, readI16s_append is]
    congr 1
    have h2 := fromLe_leBytes 2 i.toUInt16.toNat
    rw [e] at h2
    rw [h2, Nat.mod_eq_of_lt (by simpa using i.toUInt16.toNat_lt)]
    simp

theorem hasAt_mid (pre bs post : Bytes) : HasAt (pre ++ (bs ++ post)) pre.length bs := by
  intro i hi
  rw [List.getElem?_append_right (by omega), Nat.add_sub_cancel_left, List.getElem?_append_left hi,
    List.getElem?_eq_getElem hi]

theorem adj_entry_read (pre : Bytes) (e : Adj.AdjEntry) (post : Bytes) :
    Adj.AdjEntry.codec.read (pre ++ (leBytes 4 e.mesh_object_index.toNat ++ leBytes 4 e.index_buffer_offset.toNat ++ post))
      pre.length = .ok (e, pre.length + 8) := by
  have g1 := hasAt_mid pre (leBytes 4 e.mesh_object_index.toNat) (leBytes 4 e.index_buffer_offset.toNat ++ post)
  have g2 := hasAt_mid (pre ++ leBytes 4 e.mesh_object_index.toNat) (leBytes 4 e.index_buffer_offset.toNat) post
  rw [List.length_append, leBytes_length, List.append_assoc] at g2
  rw [List.append_assoc]
  have r1 := g1.readLe (by simpa using e.mesh_object_index.toNat_lt)
  have r2 := g2.readLe (by simpa using e.index_buffer_offset.toNat_lt)
  simp only [Adj.AdjEntry.codec, struct, iso, pair, u32, prim, r1, r2, UInt32.ofNat_toNat]

theorem adj_entries_read : ∀ (es : List Adj.AdjEntry) (pre post : Bytes),
    readElems Adj.AdjEntry.codec es.length
      (pre ++ (es.flatMap (fun e => leBytes 4 e.mesh_object_index.toNat ++ leBytes 4 e.index_buffer_offset.toNat) ++ post))
      pre.length = .ok (es, pre.length + es.length * 8)
  | [], pre, post => by simp [readElems]
  | e :: es, pre, post => by
    have h1 := adj_entry_read pre e
      (es.flatMap (fun e => leBytes 4 e.mesh_object_index.toNat ++ leBytes 4 e.index_buffer_offset.toNat) ++ post)
    have h2 := adj_entries_read es
      (pre ++ (leBytes 4 e.mesh_object_index.toNat ++ leBytes 4 e.index_buffer_offset.toNat)) post
    simp only [List.length_append, leBytes_length, List.append_assoc] at h1 h2
    simp only [List.length_cons, readElems, List.flatMap_cons, List.append_assoc, h1, h2]
    simp only [Except.ok.injEq, Prod.mk.injEq, true_and]
    omega

theorem adj_entries_length : ∀ es : List Adj.AdjEntry, (es.flatMap (fun e => leBytes 4 e.mesh_object_index.toNat ++
    leBytes 4 e.index_buffer_offset.toNat)).length = es.length * 8
  | [] => rfl
  | e :: es => by
    simp only [List.flatMap_cons, List.length_append, leBytes_length, adj_entries_length es, List.length_cons]
    omega

/-- An Adj file between other bytes. -/
theorem adj_read_mid (v : Adj) (hlen : v.entries.length < 2 ^ 32) (pre rest : Bytes) :
    Adj.readAt (pre ++ (adjBytes v ++ rest)) pre.length =
      .ok ⟨v.entries, v.index_buffer ++ Adj.readI16s rest⟩ := by
  have hn : (UInt32.ofNat v.entries.length).toNat = v.entries.length := by
    simp only [UInt32.toNat_ofNat']; omega
  have hcount := (hasAt_mid pre (leBytes 4 v.entries.length)
    (v.entries.flatMap (fun e => leBytes 4 e.mesh_object_index.toNat ++ leBytes 4 e.index_buffer_offset.toNat) ++
      (v.index_buffer.flatMap (fun i => leBytes 2 i.toUInt16.toNat) ++ rest))).readLe (by simpa using hlen)
  have he := adj_entries_read v.entries (pre ++ leBytes 4 v.entries.length)
    (v.index_buffer.flatMap (fun i => leBytes 2 i.toUInt16.toNat) ++ rest)
  rw [List.length_append, leBytes_length, List.append_assoc] at he
  simp only [Adj.readAt, u32, prim, adjBytes, List.append_assoc, hcount, hn, he]
  rw [← List.drop_drop, ← List.drop_drop, List.drop_left' rfl, List.drop_left' (leBytes_length _ _),
    List.drop_left' (adj_entries_length _), readI16s_append]

theorem putAt_parts (buf bs : Bytes) (k : Nat) (h : bs ≠ []) :
    ∃ pre, pre.length = k ∧ pre = (buf ++ List.replicate (k - buf.length) 0).take k ∧
      putAt buf k bs = pre ++ (bs ++ buf.drop (k + bs.length)) :=
  ⟨_, by simp; omega, rfl, by rw [putAt, if_neg h, List.append_assoc]⟩

theorem adjBytes_ne (v : Adj) : adjBytes v ≠ [] := by
  intro h
  have := congrArg List.length h
  simp [adjBytes, leBytes_length] at this

theorem readI16s_nil : ∀ {b : Bytes}, Adj.readI16s b = [] ↔ b.length < 2
  | [] => by simp [Adj.readI16s]
  | [x] => by simp [Adj.readI16s]
  | x :: y :: l => by simp [Adj.readI16s]

end Verif.Props
