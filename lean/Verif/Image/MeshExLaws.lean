import Verif.Image.FormatLaws
import Verif.Image.MeshEx
/-!
# Written MeshEx files
-/

namespace Verif
open Image

theorem le_mod (x : Nat) : le 4 (x % 2 ^ 32) = le 4 x := by
  have h := leBytes_fromLe (leBytes 4 x)
  rw [leBytes_length, fromLe_leBytes] at h
  rw [le_eq, le_eq, ← h]

namespace MeshEx

theorem count_len32 (v : Option (List α)) : number 4 (count v) = Image.u32 (len32 v) := by
  have : le 4 (len32 v).toNat = le 4 (count v) := by
    cases v with
    | none => rfl
    | some vs => exact le_mod vs.length
  simp only [Image.u32, number, this]

theorem chars_emits (N : Nat) [h : NeZero N] : EmitC (absPtr 8 (cstring N)) (absolute N (chars N)) :=
  absPtr_emit (a := cstring N) (EmitP.target (c := cstring N)) (Nat.pos_of_ne_zero h.out)

attribute [local instance] chars_emits

instance : EmitC MeshEntry.codec MeshEntry.image := by
  unfold MeshEntry.codec; exact EmitC.of inferInstance (fun _ => rfl)
instance : EmitC AllData.codec AllData.image := by
  unfold AllData.codec; exact EmitC.of inferInstance (fun _ => rfl)
instance : EmitC MeshObjectGroup.codec MeshObjectGroup.image := by
  unfold MeshObjectGroup.codec; exact EmitC.of inferInstance (fun _ => rfl)

theorem all_emits : EmitC (absPtr 8 AllData.codec) (absolute 16 (record AllData.image)) :=
  absPtr_emit (a := AllData.codec) (fun v => (EmitC.emits v).target _) (show 0 < 16 by decide)
theorem groups_emits (n : Nat) : EmitC (absPtr 8 (vecN n MeshObjectGroup.codec)) (absolute 16 (record (many MeshObjectGroup.image))) :=
  absPtr_emit (a := vecN n MeshObjectGroup.codec) (fun v => (slice_emits (a := MeshObjectGroup.codec) v).target _) (show 0 < 16 by decide)
theorem entries_emits (n : Nat) : EmitC (absPtr 8 (vecN n MeshEntry.codec)) (absolute 16 (record (many MeshEntry.image))) :=
  absPtr_emit (a := vecN n MeshEntry.codec) (fun v => (slice_emits (a := MeshEntry.codec) v).target _) (show 0 < 16 by decide)
theorem flags_emits (n : Nat) : EmitC (absPtr 8 (flagsCodec n)) (absolute 16 (record (many Image.u16))) :=
  absPtr_emit (a := flagsCodec n) (g := record (many Image.u16)) (fun v => (((slice_emits (a := bitfield16) v).field true).struct
    (n := sliceSize bitfield16 v) (by
      rw [many_size (f := Image.u16) (k := 2) (fun _ => rfl), sliceSize_eq (k := 2) (fun _ => rfl)])).target 16) (show 0 < 16 by decide)

attribute [local instance] all_emits groups_emits entries_emits flags_emits

theorem rest_emits : EmitF (pair u32 (pair u32 (rest 0 0))) (fun v => Image.u32 v.1 ▹ Image.u32 v.2.1 ▹
    absolute 16 (record AllData.image) v.2.2.1 ▹ absolute 16 (record (many MeshObjectGroup.image)) v.2.2.2.1 ▹
    absolute 16 (record (many MeshEntry.image)) v.2.2.2.2.1 ▹ absolute 16 (record (many Image.u16)) v.2.2.2.2.2.1 ▹
    Image.u32 v.2.2.2.2.2.2) := by
  unfold rest
  infer_instance

theorem size_of (v : Option α) (g : Target α) (a : Nat) : (absolute a g v).size = 8 := by cases v <;> rfl

/-- All but the last eight bytes to be written. -/
theorem write_image (v : MeshEx) (hc : len32 v.entries = len32 v.entry_flags) :
    match v.write with
    | .error _ => 2 ^ 64 ≤ Image.next 16 (stop v)
    | .ok b => b = v.image := by
  have hr := rest_emits.emits (len32 v.entries, len32 v.mesh_object_groups, v.all_data, v.mesh_object_groups, v.entries,
    v.entry_flags, v.unk1)
  generalize hx : (Image.u32 (len32 v.entries) ▹ Image.u32 (len32 v.mesh_object_groups) ▹
    absolute 16 (record AllData.image) v.all_data ▹ absolute 16 (record (many MeshObjectGroup.image)) v.mesh_object_groups ▹
    absolute 16 (record (many MeshEntry.image)) v.entries ▹ absolute 16 (record (many Image.u16)) v.entry_flags ▹
    Image.u32 v.unk1) = x at hr
  have hsize : x.size = 44 := by
    rw [← hx]
    simp only [Piece.and, size_of, Image.u32, number]
  have hfields : ∀ n, fields n v = number 8 n ▹ x := by
    intro n
    rw [← hx, fields, count_len32, count_len32]
  have hp : ((W.init.bump 64).put (leBytes 8 0)).pos = 8 := rfl
  have hdp : ((W.init.bump 64).put (leBytes 8 0)).dp = 64 := rfl
  have d := hr.does ((W.init.bump 64).put (leBytes 8 0)) 52 (by rw [hp, hdp]; omega) (fun _ => by rw [hp, hdp]; omega)
  rw [hp, hdp, hsize, show max 64 (8 + 44) = 64 by decide] at d
  have hbody : ∀ n, body n v = le 8 n ++ (x.make 8 52 64).here ++ (x.make 8 52 64).appended := by
    intro n
    simp only [body, hfields, Piece.and, number]
    simp
  have hstop : stop v = (x.make 8 52 64).free := by
    simp only [stop, hfields, Piece.and, number]
    simp
  have hlen := hr.good.len 8 52 64
  have hmono := (hr.good.mono 8 52 64 (by omega)).2
  have hbl : ∀ n, (body n v).length ≤ stop v := by
    intro n
    rw [hbody, hstop]
    simp only [List.length_append, le_length, hlen]
    omega
  have hn := le_next (a := 16) (by decide) (stop v)
  simp only [MeshEx.write, MeshEx.ssbhWrite, hc, ne_eq, not_true_eq_false, if_false]
  rw [hc] at hr d
  generalize (pair u32 (pair u32 (rest 0 0))).write (len32 v.entry_flags, len32 v.mesh_object_groups, v.all_data,
    v.mesh_object_groups, v.entries, v.entry_flags, v.unk1) ((W.init.bump 64).put (leBytes 8 0)) = r at d
  cases r with
  | error er =>
    have d : 2 ^ 64 ≤ (x.make 8 52 64).free := d
    show 2 ^ 64 ≤ _
    omega
  | ok w =>
    obtain ⟨-, -, N, p3, p4⟩ := d
    have all := ((Filled.data 0 52 (leBytes 8 0)).ghost (M := [.obj 0 64]) (by simp)).and
      (by rw [leBytes_length]; exact p4)
    have hbuf : w.buf = body 0 v := by
      have e : w.log = N ++ ([.data 0 (leBytes 8 0)] ++ [.obj 0 64]) := by rw [p3]; rfl
      rw [W.buf, e, all.bytes (by simp [leBytes_length, hlen, hsize]), hbody, le_eq, List.nil_append]
    have hal := alignEnd_buf 16 w
    rw [hbuf, ← next_eq (by decide)] at hal
    simp only [hbuf, ← next_eq (a := 16) (by decide)]
    by_cases hlt : Image.next 16 (body 0 v).length < 2 ^ 64
    · rw [if_pos hlt]
      show render (Ev.data 0 _ :: (alignEnd 16 w).log) = _
      show putAt (alignEnd 16 w).buf 0 _ = _
      rw [hal, hbody]
      simp only [image, hbody]
      unfold putAt
      rw [if_neg (by intro h; have := congrArg List.length h; simp [leBytes_length] at this)]
      simp only [Nat.zero_sub, List.replicate_zero, List.append_nil, List.take_zero, List.nil_append, Nat.zero_add,
        leBytes_length, le_eq, List.append_assoc]
      rw [List.drop_append_of_le_length (by rw [leBytes_length]; exact Nat.le_refl 8), List.drop_of_length_le (by rw [leBytes_length]; exact Nat.le_refl 8)]
      rfl
    · rw [if_neg hlt]
      show 2 ^ 64 ≤ _
      have : Image.next 16 (body 0 v).length ≤ Image.next 16 (stop v) := by
        have h1 := hbl 0
        simp only [Image.next]
        omega
      omega

end MeshEx
end Verif
