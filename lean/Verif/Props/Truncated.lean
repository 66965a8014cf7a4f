import Verif.Formats.Cut
import Verif.Props.DataFiles
import Verif.Props.FileLayout
import Verif.Data.ShdrData
/-!
# C92: incomplete files
-/

namespace Verif.Props
open Verif

/-! ## Specification -/

/-- If only the first `k` bytes of a file are left, at most `n` bytes were lost, and these are zero. -/
def LostOnlyZeros (bytes : Bytes) (k n : Nat) : Prop :=
  bytes.length ≤ k + n ∧ ∀ i x, k ≤ i → bytes[i]? = some x → x = 0

/-! ## More input -/

theorem readSsbhMagic_ext (b rest : Bytes) : ExtR (readSsbhMagic b) (readSsbhMagic (b ++ rest)) := by
  rw [readSsbhMagic_eq, readSsbhMagic_eq]
  rcases readBytes_ext 4 b rest 0 with ⟨e, h1⟩ | ⟨⟨m, q⟩, h1, h2⟩
  · rw [h1]; exact .error
  rw [h1, h2]
  dsimp only
  refine ite_ext .error ?_
  rcases readBytes_ext 4 b rest 16 with ⟨e, h1⟩ | ⟨⟨m, q⟩, h1, h2⟩
  · rw [h1]; exact .error
  rw [h1, h2]
  exact .ok

theorem readVersioned_ext {f : Format α} [hf : ExtF f] (b rest : Bytes) (p : Nat) :
    ExtR (f.readVersioned b p) (f.readVersioned (b ++ rest) p) := by
  unfold Format.readVersioned
  rcases readLe_ext 2 b rest p with ⟨e, h1⟩ | ⟨⟨m, q⟩, h1, h2⟩
  · rw [h1]; exact .error
  rw [h1, h2]
  dsimp only
  rcases readLe_ext 2 b rest q with ⟨e, h1⟩ | ⟨⟨m', q'⟩, h1, h2⟩
  · rw [h1]; exact .error
  rw [h1, h2]
  dsimp only
  rcases hf.read (UInt16.ofNat m) (UInt16.ofNat m') b rest q' with ⟨e, h1⟩ | ⟨⟨v, q2⟩, h1, h2⟩
  · rw [h1]; exact .error
  rw [h1, h2]
  exact .ok

theorem wrap_ext {f : α → Ssbh} {r r1 : Except RErr α} (h : ExtR r r1) : ExtR (wrap f r) (wrap f r1) := by
  rcases h with ⟨e, rfl⟩ | ⟨x, rfl, rfl⟩
  · exact .error
  · exact .ok

theorem readData_ext (m b rest : Bytes) : ExtR (Ssbh.readData m b) (Ssbh.readData m (b ++ rest)) := by
  unfold Ssbh.readData Ssbh.readDataAt
  refine ite_ext (wrap_ext (readVersioned_ext b rest 20)) (ite_ext (wrap_ext (readVersioned_ext b rest 20))
    (ite_ext (wrap_ext (readVersioned_ext b rest 20)) (ite_ext (wrap_ext (readVersioned_ext b rest 20))
    (ite_ext (wrap_ext (readVersioned_ext b rest 20)) (ite_ext (wrap_ext (readVersioned_ext b rest 20))
    (ite_ext (wrap_ext (readVersioned_ext b rest 20)) (ite_ext (wrap_ext (readVersioned_ext b rest 20))
    (ite_ext (wrap_ext (readVersioned_ext b rest 20)) (ite_ext (wrap_ext (readVersioned_ext b rest 20)) .error)))))))))

theorem ssbh_ext (b rest : Bytes) : ExtR (Ssbh.read b) (Ssbh.read (b ++ rest)) := by
  rw [Ssbh.read_eq, Ssbh.read_eq]
  rcases readSsbhMagic_ext b rest with ⟨e, h1⟩ | ⟨m, h1, h2⟩
  · rw [h1]; exact .error
  rw [h1, h2]
  exact readData_ext m b rest

theorem readAs_ext (α : Type) [SsbhType α] (b rest : Bytes) : ExtR (readAs α b) (readAs α (b ++ rest)) := by
  unfold readAs
  rcases ssbh_ext b rest with ⟨e, h1⟩ | ⟨m, h1, h2⟩
  · rw [h1]; exact .error
  rw [h1, h2]
  exact .refl

instance : Ext MeshEx.AllData.codec := by unfold MeshEx.AllData.codec; infer_instance
instance : Ext MeshEx.MeshObjectGroup.codec := by unfold MeshEx.MeshObjectGroup.codec; infer_instance
instance : Ext MeshEx.MeshEntry.codec := by unfold MeshEx.MeshEntry.codec; infer_instance
instance (m n : Nat) : Ext (MeshEx.rest m n) := by unfold MeshEx.rest MeshEx.flagsCodec; infer_instance

theorem meshEx_ext (b rest : Bytes) : ExtR (MeshEx.read b) (MeshEx.read (b ++ rest)) := by
  unfold MeshEx.read
  rcases Ext.read (c := pair u64 (pair u32 u32)) b rest 0 with ⟨e, h1⟩ | ⟨⟨⟨x, n, m⟩, p⟩, h1, h2⟩
  · rw [h1]; exact .error
  rw [h1, h2]
  dsimp only
  rcases Ext.read (c := MeshEx.rest n.toNat m.toNat) b rest p with ⟨e, h1⟩ | ⟨⟨v, q⟩, h1, h2⟩
  · rw [h1]; exact .error
  rw [h1, h2]
  exact .ok

/-- C92: what opens also opens with more bytes after it, with the same contents. So of a file and a part of it that
ends earlier, if both open, they have the same contents; and if the part opens, so does the file. -/
theorem C92_more (b rest : Bytes) (s : Ssbh) (h : Ssbh.read b = .ok s) : Ssbh.read (b ++ rest) = .ok s :=
  (ssbh_ext b rest).get h

theorem C92_more_meshex (b rest : Bytes) (v : MeshEx) (h : MeshEx.read b = .ok v) : MeshEx.read (b ++ rest) = .ok v :=
  (meshEx_ext b rest).get h

/-- Opening `b` as data: everything but an error of the file format is the same with more bytes. -/
theorem data_ext {γ : Type} {r r1 : Except RErr α} (h : ExtR r r1) (f : Except DataErr α → γ) (x : γ)
    (hx : f (liftRead r) = x) (hne : ∀ e, x ≠ f (.error (.read e))) : f (liftRead r1) = x := by
  rcases h with ⟨e, rfl⟩ | ⟨y, rfl, rfl⟩
  · exact absurd hx.symm (hne e)
  · exact hx

theorem more_data (F : FloatConv) (A : FloatOps) (b rest : Bytes) :
    (∀ r, ModlData.read b = r → (∀ e, r ≠ .error (.read e)) → ModlData.read (b ++ rest) = r) ∧
    (∀ r, HlpbData.read b = r → (∀ e, r ≠ .error (.read e)) → HlpbData.read (b ++ rest) = r) ∧
    (∀ r, MeshExData.read b = r → (∀ e, r ≠ .error (.read e)) → MeshExData.read (b ++ rest) = r) ∧
    (∀ r, MatlData.read b = r → (∀ e, r ≠ .error (.read e)) → MatlData.read (b ++ rest) = r) ∧
    (∀ r, SkelData.read b = r → (∀ e, r ≠ .error (.read e)) → SkelData.read (b ++ rest) = r) ∧
    (∀ r, MeshData.read F b = r → (∀ e, r ≠ .error (.read e)) → MeshData.read F (b ++ rest) = r) ∧
    (∀ r, AnimData.read A b = r → (∀ e, r ≠ some (.error (.read e))) → AnimData.read A (b ++ rest) = r) := by
  refine ⟨fun r => data_ext (readAs_ext Modl b rest) (fun x => x.map _) r,
    fun r => data_ext (readAs_ext Hlpb b rest) (fun x => x.map _) r,
    fun r => data_ext (meshEx_ext b rest) (fun x => x.map _) r,
    fun r => data_ext (readAs_ext Matl b rest) (fun x => x.map _) r,
    fun r => data_ext (readAs_ext Skel b rest) (fun x => x.map _) r, ?_, ?_⟩
  · intro r h hne
    unfold MeshData.read at h ⊢
    rcases readAs_ext Mesh b rest with ⟨e, h1⟩ | ⟨x, h1, h2⟩
    · rw [h1] at h; exact absurd h.symm (hne e)
    · rw [h1] at h; rw [h2]; exact h
  · intro r h hne
    unfold AnimData.read at h ⊢
    rcases readAs_ext Anim b rest with ⟨e, h1⟩ | ⟨x, h1, h2⟩
    · rw [h1] at h; exact absurd h.symm (hne e)
    · rw [h1] at h; rw [h2]; exact h

/-- C92 for the types of ssbh_data: whatever happens except that the file cannot be read (data, an error of the
conversion, or a panic) also happens with more bytes after the file. -/
theorem C92_more_data (F : FloatConv) (A : FloatOps) (L : Lossy) (b rest : Bytes) :
    (∀ r, ModlData.read b = r → (∀ e, r ≠ .error (.read e)) → ModlData.read (b ++ rest) = r) ∧
    (∀ r, HlpbData.read b = r → (∀ e, r ≠ .error (.read e)) → HlpbData.read (b ++ rest) = r) ∧
    (∀ r, MeshExData.read b = r → (∀ e, r ≠ .error (.read e)) → MeshExData.read (b ++ rest) = r) ∧
    (∀ r, MatlData.read b = r → (∀ e, r ≠ .error (.read e)) → MatlData.read (b ++ rest) = r) ∧
    (∀ r, SkelData.read b = r → (∀ e, r ≠ .error (.read e)) → SkelData.read (b ++ rest) = r) ∧
    (∀ r, MeshData.read F b = r → (∀ e, r ≠ .error (.read e)) → MeshData.read F (b ++ rest) = r) ∧
    (∀ r, AnimData.read A b = r → (∀ e, r ≠ some (.error (.read e))) → AnimData.read A (b ++ rest) = r) ∧
    (∀ r, ShdrData.read L b = r → (∀ e, r ≠ some (.error e)) → ShdrData.read L (b ++ rest) = r) := by
  obtain ⟨h1, h2, h3, h4, h5, h6, h7⟩ := more_data F A b rest
  refine ⟨h1, h2, h3, h4, h5, h6, h7, fun r h hne => ?_⟩
  unfold ShdrData.read at h ⊢
  rcases readAs_ext Shdr b rest with ⟨e, h1⟩ | ⟨x, h1, h2⟩
  · rw [h1] at h; exact absurd h.symm (hne e)
  · rw [h1] at h; rw [h2]; exact h

/-! ## Saved files -/

/-- From the trace to the bytes. -/
theorem kept_bytes {N : List Ev} {bytes zeros : Bytes} {k a : Nat} (hd : N.Pairwise Ev.disj) (hk : Uncut k N)
    (hb : bytes = render N ++ zeros) (hz : ∀ x ∈ zeros, x = 0) (ha : zeros.length ≤ a) : LostOnlyZeros bytes k (16 + a) := by
  have hl : (render N).length ≤ k + 16 := by
    refine render_length_le fun p bs hm hne => ?_
    have hpos := List.length_pos_iff.mpr hne
    by_cases hc : k ≤ p + (bs.length - 1)
    · have := (hk p bs hm (bs.length - 1) (by omega) hc).2
      omega
    · omega
  subst hb
  refine ⟨by rw [List.length_append]; omega, fun i x hi hx => ?_⟩
  by_cases hlt : i < (render N).length
  · rw [List.getElem?_append_left hlt] at hx
    by_cases hc : Covered N i
    · obtain ⟨p, bs, hm, h1, h2⟩ := hc
      have hv := render_hasAll hd p bs hm (i - p) (by omega)
      rw [show p + (i - p) = i by omega, hx] at hv
      cases hv
      exact (hk p bs hm (i - p) (by omega) (by omega)).1
    · rw [render_zero hlt hc] at hx
      cases hx; rfl
  · rw [List.getElem?_append_right (by omega)] at hx
    exact hz x (List.mem_of_getElem? hx)

theorem roundUp_small {v n : Nat} (hn : 0 < n) : roundUp v n ≤ v + (n - 1) := by
  unfold roundUp
  have := Nat.div_mul_le_self (v + n - 1) n
  omega

theorem format_saved {f : Format α} [hf : LawFormat f] [hc : CutFormat f] {v v' : α} {bytes : Bytes} {k : Nat}
    (h : f.toBytes v = .ok bytes) (hr : f.readVersioned (bytes.take k) 20 = .ok v') : LostOnlyZeros bytes k 23 := by
  obtain ⟨w, hw, hbytes⟩ := Format.toBytes_ok h
  obtain ⟨N, hs, p, -⟩ := hf.body hw
  have hm := hf.magic
  let w0 : W := ⟨headerEvents f.magic (f.version v).1 (f.version v).2, 24, 24 + f.size v⟩
  have e : f.writeBody v = f.write v w0 := by
    simp only [Format.writeBody, Format.writeBodyTo, writeSsbhHeader, W.init, W.put, W.setDp, leBytes_length, hm,
      headerEvents, w0]
    congr 2
    simp; omega
  rw [e] at hw
  obtain ⟨N', l, r⟩ := hc.cut v w0 w hw
  have hlog := hs.log
  have hN : N' = N := by
    rw [l, List.append_nil] at hlog
    exact List.append_cancel_right hlog
  subst hN
  have hbuf : w.buf = render (N' ++ headerEvents f.magic (f.version v).1 (f.version v).2) := by
    rw [W.buf, hlog, List.append_nil]
  have hall : HasAll bytes (N' ++ headerEvents f.magic (f.version v).1 (f.version v).2) := by
    rw [hbytes, hbuf]
    exact (render_hasAll hs.disj).append
  have h20 : HasAt bytes 20 (leBytes 2 (f.version v).1.toNat) := hall.right _ _ (by simp [headerEvents])
  have h22 : HasAt bytes 22 (leBytes 2 (f.version v).2.toNat) := hall.right _ _ (by simp [headerEvents])
  unfold Format.readVersioned at hr
  split at hr
  · cases hr
  rename_i maj p1 hmaj
  obtain ⟨rfl, rfl, -⟩ := cut_readLe h20 (f.version v).1.toNat_lt hmaj
  split at hr
  · cases hr
  rename_i min p2 hmin
  obtain ⟨rfl, rfl, hk⟩ := cut_readLe h22 (f.version v).2.toNat_lt hmin
  have hk := hk (by decide)
  split at hr
  · cases hr
  rename_i x q hx
  rw [UInt16.ofNat_toNat, UInt16.ofNat_toNat] at hx
  obtain ⟨hkept, -⟩ := r bytes k x q hall.left hx
  have hhead : Uncut k (headerEvents f.magic (f.version v).1 (f.version v).2) := by
    unfold headerEvents
    refine .data ?_ (.data ?_ (.data ?_ (.data ?_ (.data ?_ (.data ?_ .nil))))) <;>
      simp only [leBytes_length, hm, List.length_cons, List.length_nil] <;> omega
  have hal := roundUp_small (v := w.buf.length) (hf.align v)
  have h8 := hc.align v
  have := kept_bytes (a := 7) hs.disj (hkept.append hhead) (bytes := bytes) (zeros :=
    List.replicate (roundUp w.buf.length (f.alignAfter v) - w.buf.length) 0) (by rw [hbytes, hbuf])
    (fun x hx => (List.mem_replicate.mp hx).2) (by rw [List.length_replicate]; omega)
  exact this

/-- The ten types have formats which need what was written. -/
class CutSsbh (α : Type) [t : SsbhType α] : Prop where
  cut : CutFormat t.format

instance : CutSsbh Hlpb := ⟨inferInstanceAs (CutFormat Hlpb.format)⟩
instance : CutSsbh Matl := ⟨inferInstanceAs (CutFormat Matl.format)⟩
instance : CutSsbh Modl := ⟨inferInstanceAs (CutFormat Modl.format)⟩
instance : CutSsbh Mesh := ⟨inferInstanceAs (CutFormat Mesh.format)⟩
instance : CutSsbh Skel := ⟨inferInstanceAs (CutFormat Skel.format)⟩
instance : CutSsbh Anim := ⟨inferInstanceAs (CutFormat Anim.format)⟩
instance : CutSsbh Nlst := ⟨inferInstanceAs (CutFormat Nlst.format)⟩
instance : CutSsbh Nrpd := ⟨inferInstanceAs (CutFormat Nrpd.format)⟩
instance : CutSsbh Nufx := ⟨inferInstanceAs (CutFormat Nufx.format)⟩
instance : CutSsbh Shdr := ⟨inferInstanceAs (CutFormat Shdr.format)⟩

theorem readAs_saved {α : Type} [t : SsbhType α] [hl : LawSsbh α] [hc : CutSsbh α] {v v' : α} {bytes : Bytes} {k : Nat}
    (h : writeAs v = .ok bytes) (hr : readAs α (bytes.take k) = .ok v') : LostOnlyZeros bytes k 23 := by
  have := hl.law
  have := hc.cut
  unfold readAs at hr
  split at hr
  · cases hr
  rename_i s hs
  split at hr
  · rename_i x hx
    cases hr
    have hs' := hl.inj s v' hx
    subst hs'
    rw [Ssbh.read_eq] at hs
    split at hs
    · cases hs
    exact format_saved h (hl.readData_inv _ _ _ hs).2
  · cases hr

/-- C92: a saved file that lost its end and still opens has the same contents, and has only lost up to 23 zero bytes. -/
theorem C92_saved (s s' : Ssbh) (bytes : Bytes) (k : Nat) (h : s.write = .ok bytes)
    (hr : Ssbh.read (bytes.take k) = .ok s') : s' = s ∧ LostOnlyZeros bytes k 23 := by
  have he := C92_more _ (bytes.drop k) _ hr
  rw [List.take_append_drop, C01_ssbh_round_trip s bytes h] at he
  cases he
  refine ⟨rfl, ?_⟩
  have key : ∀ {α : Type} [t : SsbhType α] [hl : LawSsbh α] [hc : CutSsbh α] (v : α), s = t.inj v →
      LostOnlyZeros bytes k 23 := by
    intro α t hl hc v hv
    subst hv
    refine readAs_saved (α := α) (v := v) (v' := v) (k := k) ?_ ?_
    · simp only [Ssbh.write, hl.write] at h
      exact h
    · simp only [readAs, hr, hl.proj]
  cases s with
  | Hlpb v => exact key v rfl
  | Matl v => exact key v rfl
  | Modl v => exact key v rfl
  | Mesh v => exact key v rfl
  | Skel v => exact key v rfl
  | Anim v => exact key v rfl
  | Nlst v => exact key v rfl
  | Nrpd v => exact key v rfl
  | Nufx v => exact key v rfl
  | Shdr v => exact key v rfl

/-! ## MeshEx -/

instance : CutF MeshEx.MeshEntry.codec := by unfold MeshEx.MeshEntry.codec; infer_instance

instance (N : Nat) [AtMost16 N] [hN : NeZero N] : CutF (absPtr 8 (cstring N)) where
  cut _ := absPtr_cut (by decide) (Nat.pos_of_ne_zero hN.ne) fun x _ => CutP.cut x

instance : CutF MeshEx.AllData.codec := by unfold MeshEx.AllData.codec; infer_instance
instance : CutF MeshEx.MeshObjectGroup.codec := by unfold MeshEx.MeshObjectGroup.codec; infer_instance

theorem pair_cutAt {a : Codec α} {b : Codec β} {x : α} {y : β} (ha : CutAt a True x) (hb : CutAt b True y) :
    CutAt (pair a b) True (x, y) := by
  intro w w' hw
  simp only [pair] at hw
  split at hw
  case h_2 => cases hw
  rename_i w1 h1
  obtain ⟨N1, l1, r1⟩ := ha w w1 h1
  obtain ⟨N2, l2, r2⟩ := hb w1 w' hw
  refine ⟨N2 ++ N1, by rw [l2, l1, List.append_assoc], fun bs k x q hbs hq => ?_⟩
  simp only [pair] at hq
  split at hq
  · cases hq
  rename_i y p1 hy
  obtain ⟨k1, e1⟩ := r1 bs k y p1 hbs.right hy
  have e1 := e1 trivial
  subst e1
  split at hq
  · cases hq
  rename_i z p2 hz
  cases hq
  obtain ⟨k2, e2⟩ := r2 bs k z q hbs.left hz
  exact ⟨k2.append k1, e2⟩

theorem rest_cut (v : MeshEx) {ec gc : Nat} (he : ∀ vs, v.entries = some vs → vs.length = ec)
    (hf : ∀ vs, v.entry_flags = some vs → vs.length = ec)
    (hg : ∀ vs, v.mesh_object_groups = some vs → vs.length = gc) :
    CutAt (MeshEx.rest ec gc) True (v.all_data, v.mesh_object_groups, v.entries, v.entry_flags, v.unk1) := by
  refine pair_cutAt (absPtr_cut (by decide) (show 0 < 16 by decide) fun x _ => (CutF.cut x).weaken) (pair_cutAt
    (absPtr_cut (by decide) (show 0 < 16 by decide) fun x hx => (vecN_cut (hg x hx)).weaken) (pair_cutAt
    (absPtr_cut (by decide) (show 0 < 16 by decide) fun x hx => (vecN_cut (he x hx)).weaken) (pair_cutAt
    (absPtr_cut (by decide) (show 0 < 16 by decide) fun x hx => ?_) (CutF.cut (c := u32) v.unk1))))
  exact (struct_cut (vecN_cut (hf x hx))).weaken

/-- C92 for MeshEx files. -/
theorem C92_saved_meshex (v v' : MeshEx) (bytes : Bytes) (k : Nat) (h : v.write = .ok bytes)
    (h1 : countOf v.entries < 2 ^ 32) (h2 : countOf v.entry_flags < 2 ^ 32) (h3 : countOf v.mesh_object_groups < 2 ^ 32)
    (hr : MeshEx.read (bytes.take k) = .ok v') : v' = v ∧ LostOnlyZeros bytes k 31 := by
  have he := C92_more_meshex _ (bytes.drop k) _ hr
  obtain ⟨-, -, hback⟩ := C15_meshex_file v bytes h h1 h2 h3
  rw [List.take_append_drop, hback] at he
  cases he
  refine ⟨rfl, ?_⟩
  obtain ⟨N, L, pad, size, zeros, hpad, hsize, h16, hz, hlt, hbytes, hdisj, hrd, hL, w3, hw3, hlog⟩ := meshEx_write h h1 h2
  have hcount : countOf v.entries = countOf v.entry_flags := by
    by_cases hc : countOf v.entries = countOf v.entry_flags
    · exact hc
    · have := C15_meshex_counts v W.init h1 h2 hc
      simp only [MeshEx.write, this] at h
      cases h
  have hrest := rest_cut v (ec := countOf v.entries) (gc := countOf v.mesh_object_groups)
    (by intro vs hvs; rw [hvs]; rfl) (by intro vs hvs; rw [hcount, hvs]; rfl) (by intro vs hvs; rw [hvs]; rfl)
  obtain ⟨N', l, r⟩ := pair_cutAt (CutF.cut (c := u32) (MeshEx.len32 v.entries))
    (pair_cutAt (CutF.cut (c := u32) (MeshEx.len32 v.mesh_object_groups)) hrest) ⟨L, 8, 64⟩ w3 hw3
  have hN : N' = N := by
    rw [l] at hlog
    exact List.append_cancel_right hlog
  subst hN
  have hall : HasAll bytes (pad ++ N') := by
    rw [hbytes, ← List.append_assoc]
    exact render_hasAll_append hdisj
  -- the parts of the reader
  have hkept : Uncut k N' ∧ 8 ≤ k := by
    have hwhole := hrd bytes hall.right
    unfold MeshEx.read at hr
    split at hr
    · cases hr
    rename_i l8 ec gc p hh
    split at hr
    · cases hr
    rename_i a g e f u q hq
    simp only [pair] at hh
    split at hh
    · cases hh
    rename_i x8 p8 h8
    split at hh
    · cases hh
    rename_i xx pp hcounts
    cases hh
    split at hcounts
    · cases hcounts
    rename_i x4 p4 h4
    split at hcounts
    · cases hcounts
    rename_i y4 q4 h4'
    cases hcounts
    have hk8 := Ends.ends (c := u64) _ _ _ _ h8
    have hp8 : p8 = 8 := by
      simp only [u64, prim] at h8
      split at h8
      · cases h8
      rename_i hx
      have := (readLe_ok hx).2.2
      cases h8
      omega
    subst hp8
    have e4 := (Ext.read (c := u32) (bytes.take k) (bytes.drop k) 8).get h4
    have e4' := (Ext.read (c := u32) (bytes.take k) (bytes.drop k) p4).get h4'
    rw [List.take_append_drop] at e4 e4'
    simp only [pair] at hwhole
    rw [e4] at hwhole
    simp only at hwhole
    rw [e4'] at hwhole
    simp only at hwhole
    have hec : ec = MeshEx.len32 v.entries ∧ gc = MeshEx.len32 v.mesh_object_groups := by
      split at hwhole
      · cases hwhole
      · rename_i heq
        split at heq
        · cases heq
        · cases heq; cases hwhole; exact ⟨rfl, rfl⟩
    obtain ⟨rfl, rfl⟩ := hec
    rw [len32_toNat _ h1, len32_toNat _ h3] at hq
    have := r bytes k (MeshEx.len32 v.entries, MeshEx.len32 v.mesh_object_groups, a, g, e, f, u) q hall.right (by
      simp only [pair, h4, h4', hq])
    exact ⟨this.1, take_le hk8⟩
  obtain ⟨hkept, hk8⟩ := hkept
  have hbody : Uncut k (N' ++ L) := hkept.append (by
    rw [hL]
    exact .data (by rw [leBytes_length]; omega) (.obj .nil))
  have hsz : size ≤ k + 16 := by
    rw [hsize]
    refine render_length_le fun p bs hm hne => ?_
    have hpos := List.length_pos_iff.mpr hne
    by_cases hc : k ≤ p + (bs.length - 1)
    · have := (hbody p bs hm (bs.length - 1) (by omega) hc).2
      omega
    · omega
  have hle := le_roundUp (v := size) (n := 16) (by decide)
  have hru := roundUp_small (v := size) (n := 16) (by decide)
  have hlen : bytes.length ≤ roundUp size 16 := by
    rw [hbytes]
    refine render_length_le fun p bs hm hne => ?_
    rw [hpad] at hm
    simp only [List.cons_append, List.nil_append, List.mem_cons, Ev.data.injEq] at hm
    rcases hm with ⟨rfl, rfl⟩ | ⟨rfl, rfl⟩ | hm
    · rw [leBytes_length]; omega
    · rw [hz, List.length_replicate]; omega
    · have hl : p + bs.length ≤ size := by
        rcases List.mem_append.mp hm with hm | hm
        · have := (render_hasAll_append (N := N') (L := L) (List.pairwise_append.mp hdisj).2.1 p bs hm).length hne
          omega
        · rw [hL] at hm
          simp only [List.mem_cons, Ev.data.injEq, reduceCtorEq, List.not_mem_nil, or_false] at hm
          obtain ⟨rfl, rfl⟩ := hm
          rw [leBytes_length]; omega
      omega
  refine ⟨by omega, fun i x hi hx => ?_⟩
  by_cases hc : Covered (pad ++ N') i
  · obtain ⟨p, bs, hm, hi1, hi2⟩ := hc
    have hv := hall p bs hm (i - p) (by omega)
    rw [show p + (i - p) = i by omega, hx] at hv
    cases hv
    rcases List.mem_append.mp hm with hm | hm
    · rw [hpad] at hm
      simp only [List.mem_cons, Ev.data.injEq, List.not_mem_nil, or_false] at hm
      rcases hm with ⟨rfl, rfl⟩ | ⟨rfl, rfl⟩
      · rw [leBytes_length] at hi2; omega
      · simp [hz]
    · exact (hkept p bs hm (i - p) (by omega) (by omega)).1
  · have hlt : i < (render (pad ++ (N' ++ L))).length := by
      rw [← hbytes]; exact (List.getElem?_eq_some_iff.mp hx).1
    have : ¬ Covered (pad ++ (N' ++ L)) i := by
      rintro ⟨p, bs, hm, hi1, hi2⟩
      rw [← List.append_assoc] at hm
      rcases List.mem_append.mp hm with hm | hm
      · exact hc ⟨p, bs, hm, hi1, hi2⟩
      · rw [hL] at hm
        simp only [List.mem_cons, Ev.data.injEq, reduceCtorEq, List.not_mem_nil, or_false] at hm
        obtain ⟨rfl, rfl⟩ := hm
        rw [leBytes_length] at hi2
        omega
    have hz0 := render_zero hlt this
    rw [← hbytes, hx] at hz0
    cases hz0; rfl

/-! ## Files of the data types -/

theorem liftRead_map_ok {r : Except RErr α} {f : α → β} {d : β} (h : (liftRead r).map f = .ok d) : ∃ x, r = .ok x := by
  cases r with
  | error e => cases h
  | ok x => exact ⟨x, rfl⟩

/-- C92 for files saved by the types of ssbh_data: if what is left opens, only up to 23 zero bytes were lost (31 for
MeshEx), and the whole file opens as the same data. -/
theorem C92_saved_data (F : FloatConv) (bounds : List (Vector F32 3) → Mesh.BoundingInfo) (A : FloatOps)
    (O : MatOps Matrix4x4) (sphereOf : List Mesh.BoundingSphere → Mesh.BoundingSphere) (bytes : Bytes) (k : Nat) :
    (∀ d d' : ModlData, d.write = .ok bytes → ModlData.read (bytes.take k) = .ok d' →
      ModlData.read bytes = .ok d' ∧ LostOnlyZeros bytes k 23) ∧
    (∀ d d' : HlpbData, d.write = .ok bytes → HlpbData.read (bytes.take k) = .ok d' →
      HlpbData.read bytes = .ok d' ∧ LostOnlyZeros bytes k 23) ∧
    (∀ d d' : MatlData, d.write = .ok bytes → MatlData.read (bytes.take k) = .ok d' →
      MatlData.read bytes = .ok d' ∧ LostOnlyZeros bytes k 23) ∧
    (∀ d d' : SkelData, d.write O = .ok bytes → SkelData.read (bytes.take k) = .ok d' →
      SkelData.read bytes = .ok d' ∧ LostOnlyZeros bytes k 23) ∧
    (∀ d d' : MeshData, d.write F bounds = .ok bytes → MeshData.read F (bytes.take k) = .ok d' →
      MeshData.read F bytes = .ok d' ∧ LostOnlyZeros bytes k 23) ∧
    (∀ d d' : AnimData, d.write A = .ok bytes → AnimData.read A (bytes.take k) = some (.ok d') →
      AnimData.read A bytes = some (.ok d') ∧ LostOnlyZeros bytes k 23) ∧
    (∀ d d' : MeshExData, d.write sphereOf = .ok bytes → d.mesh_object_groups.length < 2 ^ 32 →
      (d.mesh_object_groups.map (·.entry_flags.length)).sum < 2 ^ 32 → MeshExData.read (bytes.take k) = .ok d' →
      MeshExData.read bytes = .ok d' ∧ LostOnlyZeros bytes k 31) := by
  obtain ⟨m1, m2, m3, m4, m5, m6, m7⟩ := more_data F A (bytes.take k) (bytes.drop k)
  rw [List.take_append_drop] at m1 m2 m3 m4 m5 m6 m7
  refine ⟨?_, ?_, ?_, ?_, ?_, ?_, ?_⟩
  · intro d d' h hr
    obtain ⟨x, hx⟩ := liftRead_map_ok hr
    exact ⟨m1 _ hr (by intro e; simp), readAs_saved (liftWrite_ok.mp h) hx⟩
  · intro d d' h hr
    obtain ⟨x, hx⟩ := liftRead_map_ok hr
    exact ⟨m2 _ hr (by intro e; simp), readAs_saved (liftWrite_ok.mp h) hx⟩
  · intro d d' h hr
    obtain ⟨x, hx⟩ := liftRead_map_ok hr
    refine ⟨m4 _ hr (by intro e; simp), ?_⟩
    unfold MatlData.write at h
    split at h
    · cases h
    · exact readAs_saved (liftWrite_ok.mp h) hx
  · intro d d' h hr
    obtain ⟨x, hx⟩ := liftRead_map_ok hr
    refine ⟨m5 _ hr (by intro e; simp), ?_⟩
    unfold SkelData.write at h
    split at h
    · exact readAs_saved (liftWrite_ok.mp h) hx
    · cases h
  · intro d d' h hr
    refine ⟨m6 _ hr (by intro e; simp), ?_⟩
    unfold MeshData.write at h
    split at h
    · cases h
    rename_i m hm
    unfold MeshData.read at hr
    cases hx : readAs Mesh (bytes.take k) with
    | error e => rw [hx] at hr; cases hr
    | ok x => exact readAs_saved (liftWrite_ok.mp h) hx
  · intro d d' h hr
    refine ⟨m7 _ hr (by intro e; simp), ?_⟩
    unfold AnimData.write at h
    split at h
    · cases h
    unfold AnimData.read at hr
    cases hx : readAs Anim (bytes.take k) with
    | error e => rw [hx] at hr; cases hr
    | ok x => exact readAs_saved (liftWrite_ok.mp h) hx
  · intro d d' h hg hf hr
    obtain ⟨x, hx⟩ := liftRead_map_ok hr
    refine ⟨m3 _ hr (by intro e; simp), ?_⟩
    unfold MeshExData.write at h
    split at h
    · cases h
    rename_i b hb
    cases h
    obtain ⟨groups, entries, flags, e1, e2, e3, l1, _, l2, l3⟩ := C33_entries sphereOf d (Nat.le_of_lt hg)
    exact (C92_saved_meshex _ x _ k hb (by rw [e2]; simp only [countOf, Option.getD_some]; omega)
      (by rw [e3]; simp only [countOf, Option.getD_some]; omega)
      (by rw [e1]; simp only [countOf, Option.getD_some]; omega) hx).2

/-! ## Adj -/

theorem readLe_take {n k p : Nat} {b : Bytes} (h : p + n ≤ k) : readLe n (b.take k) p = readLe n b p := by
  unfold readLe readBytes
  have e : (((b.take k).drop p).take n) = (b.drop p).take n := by
    rw [List.drop_take, List.take_take]
    congr 1; omega
  rw [e, List.length_take]
  by_cases hn : n ≤ b.length - p
  · rw [if_pos hn, if_pos (by omega)]
  · rw [if_neg hn, if_neg (by omega)]

theorem adjEntry_take {k p : Nat} {b : Bytes} (h : p + 8 ≤ k) :
    Adj.AdjEntry.codec.read (b.take k) p = Adj.AdjEntry.codec.read b p := by
  simp only [Adj.AdjEntry.codec, struct, iso, pair, u32, prim]
  rw [readLe_take (by omega)]
  rcases hr : readLe 4 b p with e | ⟨x, q⟩
  · rfl
  · obtain ⟨-, -, rfl⟩ := readLe_ok hr
    dsimp only
    rw [readLe_take (by omega)]

theorem adjEntries_take {k : Nat} {b : Bytes} : ∀ (n p : Nat), p + n * 8 ≤ k →
    readElems Adj.AdjEntry.codec n (b.take k) p = readElems Adj.AdjEntry.codec n b p
  | 0, _, _ => rfl
  | n + 1, p, h => by
    simp only [readElems]
    rw [adjEntry_take (by omega)]
    rcases hr : Adj.AdjEntry.codec.read b p with e | ⟨x, q⟩
    · rfl
    · have hq : q = p + 8 := by
        have := ((inferInstance : Lays Adj.AdjEntry.codec _).read _ _ _ _).mp hr
        exact this.2
      dsimp only
      rw [adjEntries_take n q (by omega)]

instance : Ends Adj.AdjEntry.codec := by unfold Adj.AdjEntry.codec; infer_instance

theorem readElems_ends {a : Codec α} [ha : Ends a] {b : Bytes} : ∀ {n p : Nat} {vs : List α} {q : Nat}, n ≠ 0 →
    readElems a n b p = .ok (vs, q) → q ≤ b.length
  | 0, _, _, _, h, _ => absurd rfl h
  | n + 1, p, vs, q, _, h => by
    simp only [readElems] at h
    split at h
    · cases h
    rename_i v p1 h1
    split at h
    · cases h
    rename_i vs' p2 h2
    cases h
    cases n with
    | zero => cases h2; exact ha.ends _ _ _ _ h1
    | succ n => exact readElems_ends (Nat.succ_ne_zero n) h2

theorem readI16s_take : ∀ (l : Bytes) (m : Nat), Adj.readI16s (l.take m) = (Adj.readI16s l).take (m / 2)
  | [], m => by simp [Adj.readI16s]
  | [x], m => by
    cases m with
    | zero => rfl
    | succ m => simp [Adj.readI16s]
  | x :: y :: l, 0 => by simp [Adj.readI16s]
  | x :: y :: l, 1 => by simp [Adj.readI16s]
  | x :: y :: l, m + 2 => by
    have e : (m + 2) / 2 = m / 2 + 1 := by omega
    rw [e]
    simp only [List.take_succ_cons, Adj.readI16s]
    rw [readI16s_take l m]

/-- Adj files are different: an Adj file that is cut anywhere after its entries opens, with fewer indices; the
reader cannot tell. If it is cut before, that is an error. -/
theorem C92_adj (b : Bytes) (v : Adj) (k : Nat) (h : Adj.read b = .ok v) :
    (4 + v.entries.length * 8 ≤ k →
      Adj.read (b.take k) = .ok ⟨v.entries, v.index_buffer.take ((k - (4 + v.entries.length * 8)) / 2)⟩) ∧
    (k < 4 + v.entries.length * 8 → ∃ e, Adj.read (b.take k) = .error e) := by
  unfold Adj.read at h
  split at h
  · cases h
  rename_i c p hc
  split at h
  · cases h
  rename_i es q hes
  cases h
  obtain ⟨-, rfl⟩ := ((inferInstance : Lays u32 _).read _ _ _ _).mp hc
  obtain ⟨⟨hl, -⟩, rfl⟩ := (readElems_lays (c := Adj.AdjEntry.codec) b _ _ _ _).mp hes
  have hs : Layout.u32.size = 4 := rfl
  have hs8 : Adj.AdjEntry.layout.size = 8 := rfl
  simp only [hs, hs8, Nat.zero_add] at *
  constructor
  · intro hk
    rw [hl] at hk
    have hc' : u32.read (b.take k) 0 = .ok (c, 4) := by
      rw [← hc]
      simp only [u32, prim]
      rw [readLe_take (by omega)]
    unfold Adj.read
    simp only [hc', adjEntries_take _ 4 hk, hes, hl]
    rw [List.drop_take, readI16s_take]
  · intro hk
    rw [hl] at hk
    cases hr : Adj.read (b.take k) with
    | error e => exact ⟨e, rfl⟩
    | ok v' =>
      exfalso
      unfold Adj.read at hr
      split at hr
      · cases hr
      rename_i c' p' hc'
      split at hr
      · cases hr
      rename_i es' q' hes'
      have hk4 := take_le (Ends.ends (c := u32) _ _ _ _ hc')
      obtain ⟨-, rfl⟩ := ((inferInstance : Lays u32 _).read _ _ _ _).mp hc'
      have e := (Ext.read (c := u32) (b.take k) (b.drop k) 0).get hc'
      rw [List.take_append_drop, hc] at e
      cases e
      obtain ⟨⟨-, -⟩, rfl⟩ := (readElems_lays (c := Adj.AdjEntry.codec) _ _ _ _ _).mp hes'
      have hs4 : Layout.u32.size = 4 := rfl
      rw [hs4] at hk4 hes'
      have hn : c.toNat ≠ 0 := by omega
      have := take_le (readElems_ends hn hes')
      have hs8 : Adj.AdjEntry.layout.size = 8 := rfl
      rw [hs8] at this
      omega

/-! ## Examples -/

/-- A Mesh file without objects. -/
def noObjects : Ssbh := .Mesh (.V10 {
  model_name := none
  bounding_info := ⟨⟨⟨1, 2, 3⟩, 4⟩, ⟨⟨1, 2, 3⟩, ⟨1, 2, 3⟩⟩, ⟨⟨1, 2, 3⟩, ⟨⟨1, 2, 3⟩, ⟨1, 2, 3⟩, ⟨1, 2, 3⟩⟩, ⟨1, 2, 3⟩⟩⟩
  unk1 := 0, objects := [], buffer_sizes := [], polygon_index_size := 0
  vertex_buffers := [], index_buffer := [], rigging_buffers := [] })

/-- The file may lose 16 bytes and still opens; without one more byte it does not. -/
example : ∃ bytes, noObjects.write = .ok bytes ∧ Ssbh.read (bytes.take (bytes.length - 16)) = .ok noObjects ∧
    Ssbh.read (bytes.take (bytes.length - 17)) = .error .eof := by
  obtain ⟨b, h⟩ := isOk_iff.mp (show isOk noObjects.write = true by decide +kernel)
  refine ⟨b, h, ?_⟩
  have hb : (match noObjects.write with | .ok b => b | .error _ => []) = b := by rw [h]
  rw [← hb]
  decide +kernel

/-- A MeshEx file with nothing but an unnamed sphere. -/
def onlySphere : MeshEx where
  all_data := some ⟨⟨⟨1, 2, 3⟩, 4⟩, some ⟨[], by decide⟩⟩
  mesh_object_groups := none
  entries := none
  entry_flags := none
  unk1 := 5

example : ∃ bytes, onlySphere.write = .ok bytes ∧ MeshEx.read (bytes.take (bytes.length - 15)) = .ok onlySphere ∧
    MeshEx.read (bytes.take (bytes.length - 16)) = .error .eof := by
  obtain ⟨b, h⟩ := isOk_iff.mp (show isOk onlySphere.write = true by decide +kernel)
  refine ⟨b, h, ?_⟩
  have hb : (match onlySphere.write with | .ok b => b | .error _ => []) = b := by rw [h]
  rw [← hb]
  decide +kernel

/-- Something can be appended to the file of `exModl`. -/
example (rest : Bytes) : ∃ bytes, exModl.write = .ok bytes ∧ Ssbh.read (bytes ++ rest) = .ok exModl :=
  let ⟨b, h⟩ := exModl_write; ⟨b, h, C92_more _ _ _ (C01_ssbh_round_trip _ _ h)⟩

/-- An Adj file with one entry and two indices, cut after the first index and inside the entry. -/
example : Adj.read [1, 0, 0, 0, 7, 0, 0, 0, 0, 0, 0, 0, 5, 0, 6, 0] = .ok ⟨[⟨7, 0⟩], [5, 6]⟩ ∧
    Adj.read [1, 0, 0, 0, 7, 0, 0, 0, 0, 0, 0, 0, 5, 0, 6] = .ok ⟨[⟨7, 0⟩], [5]⟩ ∧
    Adj.read [1, 0, 0, 0, 7, 0, 0, 0, 0, 0, 0] = .error .eof := by decide +kernel

end Verif.Props
