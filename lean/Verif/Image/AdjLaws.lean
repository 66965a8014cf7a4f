import Verif.Image.MeshExLaws
import Verif.Image.Adj
/-!
# Written Adj files
-/

namespace Verif
open Image

/-- Fields without pointers. -/
theorem many_here {f : α → Piece} {g : α → Bytes} (h : ∀ v p e m, (f v).make p e m = ⟨g v, [], m⟩) :
    ∀ (vs : List α) p e m, (many f vs).make p e m = ⟨vs.flatMap g, [], m⟩
  | [], _, _, _ => rfl
  | v :: vs, p, e, m => by
    simp only [many, Piece.and, h, many_here h vs, List.flatMap_cons, List.append_nil]

namespace Adj

instance : EmitC AdjEntry.codec AdjEntry.image := by
  unfold AdjEntry.codec; exact EmitC.of inferInstance (fun _ => rfl)

theorem write_image (v : Adj) (b : Bytes) (h : v.write = .ok b) : b = v.image := by
  simp only [Adj.write] at h
  cases hw : v.ssbhWrite W.init with
  | error e => rw [hw] at h; cases h
  | ok w =>
    rw [hw] at h
    cases h
    simp only [Adj.ssbhWrite] at hw
    rw [show u32.write (UInt32.ofNat v.entries.length) (W.init.bump 48) =
      .ok ((W.init.bump 48).put (leBytes 4 (UInt32.ofNat v.entries.length).toNat)) from rfl] at hw
    simp only at hw
    have d1 := (slice_emits (a := AdjEntry.codec) v.entries).does
      ((W.init.bump 48).put (leBytes 4 (UInt32.ofNat v.entries.length).toNat)) 0 (by omega) (by simp)
    rw [many_here (f := AdjEntry.image) (g := fun e => le 4 e.mesh_object_index.toNat ++ le 4 e.index_buffer_offset.toNat)
      (fun _ _ _ _ => rfl)] at d1
    cases hw1 : writeSlice AdjEntry.codec v.entries
        ((W.init.bump 48).put (leBytes 4 (UInt32.ofNat v.entries.length).toNat)) with
    | error e => rw [hw1] at hw; cases hw
    | ok w1 =>
      rw [hw1] at hw d1
      obtain ⟨p1, -, N, p3, p4⟩ := d1
      simp only at hw
      have d2 := (slice_emits (a := i16) v.index_buffer).does w1 0 (by omega) (by simp)
      rw [many_here (f := Image.i16) (g := fun i => le 2 (i.toInt % 65536).toNat) (fun _ _ _ _ => rfl), hw] at d2
      obtain ⟨q1, -, M, q3, q4⟩ := d2
      have f0 := (Filled.data 0 0 (leBytes 4 (UInt32.ofNat v.entries.length).toNat)).ghost (M := [.obj 0 48]) (by simp)
      have f1 := f0.and p4
      have hl : (many AdjEntry.image v.entries).size = (v.entries.flatMap (fun e => le 4 e.mesh_object_index.toNat ++
          le 4 e.index_buffer_offset.toNat)).length := by
        have := (slice_emits (a := AdjEntry.codec) v.entries).good.len 0 0 0
        rw [many_here (f := AdjEntry.image) (g := fun e => le 4 e.mesh_object_index.toNat ++ le 4 e.index_buffer_offset.toNat)
          (fun _ _ _ _ => rfl)] at this
        exact this.symm
      have f2 := f1.and (h2 := v.index_buffer.flatMap (fun i => le 2 (i.toInt % 65536).toNat)) (a2 := []) (M := M) (by
        rw [p1, hl] at q4
        simpa [Nat.add_assoc, W.init] using q4)
      have e : w.log = M ++ (N ++ ([.data 0 (leBytes 4 (UInt32.ofNat v.entries.length).toNat)] ++ [.obj 0 48])) := by
        rw [q3, p3]; rfl
      have hall : Filled w.log 0 v.image v.image.length [] := by
        have hi : v.image = leBytes 4 (UInt32.ofNat v.entries.length).toNat ++ v.entries.flatMap (fun e =>
            le 4 e.mesh_object_index.toNat ++ le 4 e.index_buffer_offset.toNat) ++
            v.index_buffer.flatMap (fun i => le 2 (i.toInt % 65536).toNat) := by
          rw [Adj.image, ← le_mod, le_eq]
          rfl
        rw [e, hi]
        exact ⟨fun b h1 _ => f2.has b h1 (fun i hi => by simp at hi), f2.here, .nil _ _⟩
      rw [W.buf, hall.bytes rfl, List.append_nil]

end Adj
end Verif
