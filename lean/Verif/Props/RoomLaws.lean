import Verif.Props.PlainStreams
/-!
# Streams with limited room
-/

namespace Verif

/-- Every write ends within the first `n` bytes. -/
def fitsRoom (n : Nat) : List Ev → Bool
  | [] => true
  | .data p bs :: l => (bs == [] || decide (p + bs.length ≤ n)) && fitsRoom n l
  | .ptr .. :: l => fitsRoom n l
  | .obj .. :: l => fitsRoom n l

/-- Errors of writing to a stream with limited room: no more room (`WriteZero` of `write_all`), or an error which is
independent of the room. Where both happen the model says the second one; the statements are about values which can be
written without a limit. -/
inductive RoomErr where
  | full
  | other (e : WErr)
  deriving DecidableEq, Repr

/-- `SsbhFile::write` with a stream which holds `buf`, stands at `pos` and cannot become longer than `room`. The
writer does the same as without the limit up to the first write which ends after it; this one is an error. A
`Cursor<&mut [u8]>` is such a stream where `room` is the length of `buf`; a `File` on a disk with little space is another
one. /repo/ssbh_lib/src/lib.rs:188-193. -/
def Ssbh.writeRoom (s : Ssbh) (room : Nat) (buf : Bytes) (pos : Nat) : Except RoomErr (Bytes × Nat) :=
  match s.writeTo ⟨[.data 0 buf], pos, 0⟩ with
  | .error e => .error (.other e)
  | .ok w => if fitsRoom room w.log then .ok (w.buf, w.pos) else .error .full

/-- `MeshEx::write` with such a stream, /repo/ssbh_lib/src/lib.rs:284-287. -/
def MeshEx.writeRoom (v : MeshEx) (room : Nat) (buf : Bytes) (pos : Nat) : Except RoomErr (Bytes × Nat) :=
  match v.ssbhWrite ⟨[.data 0 buf], pos, 0⟩ with
  | .error e => .error (.other e.1)
  | .ok w => if fitsRoom room w.log then .ok (w.buf, w.pos) else .error .full

/-- `Adj::write` with such a stream, /repo/ssbh_lib/src/lib.rs:284-287. -/
def Adj.writeRoom (v : Adj) (room : Nat) (buf : Bytes) (pos : Nat) : Except RoomErr (Bytes × Nat) :=
  match v.ssbhWrite ⟨[.data 0 buf], pos, 0⟩ with
  | .error e => .error (.other e)
  | .ok w => if fitsRoom room w.log then .ok (w.buf, w.pos) else .error .full

end Verif

namespace Verif.Props
open Verif

theorem fitsRoom_iff {n : Nat} : ∀ {l : List Ev}, fitsRoom n l = true ↔ (render l).length ≤ n
  | [] => by simp [fitsRoom, render]
  | .ptr .. :: l => fitsRoom_iff (l := l)
  | .obj .. :: l => fitsRoom_iff (l := l)
  | .data p bs :: l => by
    show ((bs == [] || decide (p + bs.length ≤ n)) && fitsRoom n l) = true ↔ (putAt (render l) p bs).length ≤ n
    rw [Bool.and_eq_true, fitsRoom_iff (l := l), putAt_length]
    split
    · rename_i h; simp [h]
    · rename_i h; simp [h]; omega

/-- What is in the way of a file that was written without a limit is only the length of the output. -/
theorem ssbh_room {s : Ssbh} {buf out : Bytes} {k q : Nat} (h : s.writeStream buf k = .ok (out, q)) (room : Nat) :
    s.writeRoom room buf k = if out.length ≤ room then .ok (out, q) else .error .full := by
  simp only [Ssbh.writeStream] at h
  simp only [Ssbh.writeRoom]
  split at h
  · cases h
  rename_i w hw
  cases h
  rw [hw]
  simp only [fitsRoom_iff, W.buf]
  rfl

theorem meshEx_room {v : MeshEx} {buf out : Bytes} {k q : Nat} (h : v.writeStream buf k = .ok (out, q)) (room : Nat) :
    v.writeRoom room buf k = if out.length ≤ room then .ok (out, q) else .error .full := by
  simp only [MeshEx.writeStream] at h
  simp only [MeshEx.writeRoom]
  split at h
  · cases h
  rename_i w hw
  cases h
  rw [hw]
  simp only [fitsRoom_iff, W.buf]
  rfl

theorem adj_room {v : Adj} {buf out : Bytes} {k q : Nat} (h : v.writeStream buf k = .ok (out, q)) (room : Nat) :
    v.writeRoom room buf k = if out.length ≤ room then .ok (out, q) else .error .full := by
  simp only [Adj.writeStream] at h
  simp only [Adj.writeRoom]
  split at h
  · cases h
  rename_i w hw
  cases h
  rw [hw]
  simp only [fitsRoom_iff, W.buf]
  rfl

theorem roundUp_mono {a b n : Nat} (h : a ≤ b) : roundUp a n ≤ roundUp b n :=
  Nat.mul_le_mul_right _ (Nat.div_le_div_right (by omega))

theorem roundUp_max (a b n : Nat) : roundUp (max a b) n = max (roundUp a n) (roundUp b n) := by
  rcases Nat.le_total a b with h | h
  · rw [Nat.max_eq_right h, Nat.max_eq_right (roundUp_mono h)]
  · rw [Nat.max_eq_left h, Nat.max_eq_left (roundUp_mono h)]

theorem roundUp_self {a n : Nat} (hn : 0 < n) (h : n ∣ a) : roundUp a n = a := by
  have h1 := le_roundUp (v := a) hn
  have h2 := roundUp_lt (v := a) hn
  have h3 := dvd_roundUp a n
  obtain ⟨c, rfl⟩ := h
  obtain ⟨d, hd⟩ := h3
  rw [hd] at h1 h2 ⊢
  have : d < c + 1 := Nat.lt_of_mul_lt_mul_left (a := n) (by rw [Nat.mul_add, Nat.mul_one]; exact h2)
  have : c ≤ d := Nat.le_of_mul_le_mul_left h1 hn
  have : c = d := by omega
  rw [this]

theorem roundUp_le_iff {a n m : Nat} (hn : 0 < n) (hm : n ∣ m) : roundUp a n ≤ m ↔ a ≤ m :=
  ⟨fun h => Nat.le_trans (le_roundUp hn) h, fun h => by rw [← roundUp_self hn hm]; exact roundUp_mono h⟩

/-! ## Traces on top of a buffer -/

/-- Where an event writes and how much, `k` bytes later. -/
def placeOf (k : Nat) : Ev → Option (Nat × Nat)
  | .data p bs => some (p + k, bs.length)
  | _ => none

/-- The length of an output depends only on the places of the writes. -/
theorem render_length_place {k : Nat} {L : List Ev} : ∀ {N M : List Ev}, M.map (placeOf 0) = N.map (placeOf k) →
    (render (M ++ L)).length =
      if render N = [] then (render L).length else max (render L).length (k + (render N).length)
  | [], [], _ => by rw [if_pos (show render [] = [] from rfl)]; rfl
  | [], _ :: _, h => by cases h
  | _ :: _, [], h => by cases h
  | x :: N, y :: M, h => by
    rw [List.map_cons, List.map_cons, List.cons.injEq] at h
    have ih := render_length_place (L := L) h.2
    cases x with
    | ptr =>
      cases y with
      | ptr => exact ih
      | obj => exact ih
      | data => cases h.1
    | obj =>
      cases y with
      | ptr => exact ih
      | obj => exact ih
      | data => cases h.1
    | data p bs =>
      cases y with
      | ptr => cases h.1
      | obj => cases h.1
      | data p1 bs1 =>
        have h1 := h.1
        simp only [placeOf, Option.some.injEq, Prod.mk.injEq, Nat.add_zero] at h1
        obtain ⟨rfl, hlen⟩ := h1
        show (putAt (render (M ++ L)) (p + k) bs1).length = if putAt (render N) p bs = [] then (render L).length else
          max (render L).length (k + (putAt (render N) p bs).length)
        rw [putAt_length, ih]
        by_cases hbs : bs = []
        · subst hbs
          rw [if_pos (List.length_eq_zero_iff.mp hlen)]
          simp [putAt]
        · have hl := List.length_pos_of_ne_nil hbs
          have hne : putAt (render N) p bs ≠ [] := by
            intro h0
            have h1 := congrArg List.length h0
            rw [putAt_length, if_neg hbs, List.length_nil] at h1
            omega
          rw [if_neg (by rintro rfl; simp at hlen; omega), if_neg hne, putAt_length, if_neg hbs, hlen]
          split
          · rename_i h0
            rw [h0, List.length_nil]
            omega
          · omega

/-- `w1` has written to the same places as `w`, `k` bytes later, in a stream which already has the trace `L`. -/
structure Placed (k : Nat) (L : List Ev) (w w1 : W) : Prop where
  log : ∃ M, w1.log = M ++ L ∧ M.map (placeOf 0) = w.log.map (placeOf k)
  pos : w1.pos = w.pos + k
  dp : w1.dp = w.dp + k

/-- The same for the results of writing. -/
def PlacedW (k : Nat) (L : List Ev) (r r1 : Except WErr W) : Prop :=
  ∀ w1, r1 = .ok w1 → ∃ w, r = .ok w ∧ Placed k L w w1

theorem PlacedW.ok {k L w w1} (h : Placed k L w w1) : PlacedW k L (.ok w) (.ok w1) := by
  rintro _ ⟨⟩
  exact ⟨w, rfl, h⟩

theorem Placed.putLen {k L w w1} (h : Placed k L w w1) {bs bs1 : Bytes} (hl : bs1.length = bs.length) :
    Placed k L (w.put bs) (w1.put bs1) where
  log := by
    obtain ⟨M, h1, h2⟩ := h.log
    exact ⟨.data w1.pos bs1 :: M, by simp [h1], by simp [h2, placeOf, h.pos, hl]⟩
  pos := by simp [h.pos, hl]; omega
  dp := by simp [h.dp]

theorem Placed.put {k L w w1} (h : Placed k L w w1) (bs : Bytes) : Placed k L (w.put bs) (w1.put bs) := h.putLen rfl

theorem Placed.bump {k L w w1} (h : Placed k L w w1) (n : Nat) : Placed k L (w.bump n) (w1.bump n) where
  log := by
    obtain ⟨M, h1, h2⟩ := h.log
    exact ⟨.obj w1.pos n :: M, by simp [h1], by simp [h2, placeOf]⟩
  pos := by simp [h.pos]
  dp := by rw [W.bump_dp, W.bump_dp, h.dp, h.pos]; omega

theorem Placed.seek {k L w w1} (h : Placed k L w w1) {p p1 : Nat} (hp : p1 = p + k) : Placed k L (w.seek p) (w1.seek p1) where
  log := by simpa using h.log
  pos := by simp [hp]
  dp := by simp [h.dp]

theorem Placed.setDp {k L w w1} (h : Placed k L w w1) {p p1 : Nat} (hp : p1 = p + k) : Placed k L (w.setDp p) (w1.setDp p1) where
  log := by simpa using h.log
  pos := by simp [h.pos]
  dp := by simp [hp]

theorem Placed.notePtr {k L w w1} (h : Placed k L w w1) (b b1 a : Nat) : Placed k L (w.notePtr b a) (w1.notePtr b1 a) where
  log := by
    obtain ⟨M, h1, h2⟩ := h.log
    exact ⟨.ptr w1.pos b1 w1.dp a :: M, by simp [h1], by simp [h2, placeOf]⟩
  pos := by simp [h.pos]
  dp := by simp [h.dp]

theorem Placed.pointPast {k L w w1} (h : Placed k L w w1) {n : Nat} (hn : n ∣ k) :
    Placed k L (pointPast n w) (pointPast n w1) := by
  unfold Verif.pointPast
  rw [h.dp, h.pos]
  by_cases h1 : w.pos > w.dp
  · rw [if_pos h1, if_pos (by omega)]
    exact h.setDp (roundUp_move hn)
  · rw [if_neg h1, if_neg (by omega)]
    exact h

/-- Codecs which write to the same places when they are moved by multiples of 16. -/
class Place (c : Codec α) : Prop where
  align : c.align ∣ 16
  write : ∀ v k L w w1, 16 ∣ k → Placed k L w w1 → PlacedW k L (c.write v w) (c.write v w1)

theorem prim_place {n : Nat} (hn : n ∣ 16) {toNat : α → Nat} {ofNat : Nat → Option α} : Place (prim n toNat ofNat) where
  align := hn
  write _ _ _ _ _ _ h := .ok (h.put _)

instance : Place u16 := prim_place (by decide)
instance : Place u32 := prim_place (by decide)
instance : Place f32 := inferInstanceAs (Place u32)

instance [ha : Place a] [hb : Place b] : Place (pair a b) where
  align := by
    simp only [pair]
    rcases Nat.le_total a.align b.align with h | h
    · rw [Nat.max_eq_right h]; exact hb.align
    · rw [Nat.max_eq_left h]; exact ha.align
  write v k L w w1 hk h := by
    intro w2 h2
    simp only [pair] at h2 ⊢
    split at h2
    rotate_left
    · cases h2
    rename_i x1 hx1
    obtain ⟨x, hx, hx'⟩ := ha.write v.1 k L w w1 hk h x1 hx1
    rw [hx]
    exact hb.write v.2 k L x x1 hk hx' w2 h2

instance {f : β → α} {g : α → β} {h} [ha : Place a] : Place (iso a f g h) where
  align := ha.align
  write _ k L w w1 hk h := ha.write _ k L w w1 hk h

instance [hal : Divides16 al] [ha : Place a] : Place (struct al a) where
  align := hal.dvd
  write v k L _ _ hk h := ha.write v k L _ _ hk (h.bump _)

instance : Place bitfield16 := inferInstanceAs (Place (struct 2 u16))

theorem writeElems_place {a : Codec α} [ha : Place a] {k L} (hk : 16 ∣ k) : ∀ (vs : List α) (w w1 : W), Placed k L w w1 →
    PlacedW k L (writeElems a vs w) (writeElems a vs w1)
  | [], _, _, h => .ok h
  | v :: vs, w, w1, h => by
    intro w2 h2
    simp only [writeElems] at h2 ⊢
    split at h2
    rotate_left
    · cases h2
    rename_i x1 hx1
    obtain ⟨x, hx, hx'⟩ := ha.write v k L w w1 hk h x1 hx1
    rw [hx]
    exact writeElems_place hk vs x x1 hx' w2 h2

instance [ha : Place a] : Place (vecN n a) where
  align := ha.align
  write _ _ _ _ _ hk h := writeElems_place hk _ _ _ (h.bump _)

instance [hn : Divides16 N] : Place (cstring N) where
  align := hn.dvd
  write v k L w w1 _ h := by
    simp only [cstring]
    split
    · exact .ok (h.put _)
    · exact .ok ((h.put _).put _)

instance [hn : Divides16 n] [ha : Place a] : Place (absPtr n a) where
  align := hn.dvd
  write v k L w w1 hk h := by
    have hd : a.align ∣ k := Nat.dvd_trans ha.align hk
    cases v with
    | none => exact .ok ((h.bump n).put _)
    | some v =>
      intro w2 h2
      simp only [absPtr] at h2 ⊢
      have h1 := (h.bump n).setDp (p := roundUp (w.bump n).dp a.align) (p1 := roundUp (w1.bump n).dp a.align)
        (by rw [(h.bump n).dp, roundUp_move hd])
      split at h2
      rotate_left
      · cases h2
      rename_i hlt
      rw [if_pos (by have := h1.dp; omega)]
      have h3 := (h1.notePtr 0 0 a.align).putLen (bs := leBytes n (roundUp (w.bump n).dp a.align))
        (bs1 := leBytes n (roundUp (w1.bump n).dp a.align)) (by simp [leBytes_length])
      split at h2
      · cases h2
      rename_i x1 hx1
      obtain ⟨x, hx, hx'⟩ := ha.write v k L _ _ hk (h3.seek h3.dp) x1 hx1
      have e : (a.write v ((((w.bump n).setDp (roundUp (w.bump n).dp a.align)).notePtr 0 a.align).put
        (leBytes n ((w.bump n).setDp (roundUp (w.bump n).dp a.align)).dp) |>.seek ((((w.bump n).setDp (roundUp (w.bump n).dp a.align)).notePtr 0 a.align).put
        (leBytes n ((w.bump n).setDp (roundUp (w.bump n).dp a.align)).dp)).dp)) = .ok x := hx
      rw [e]
      cases h2
      exact ⟨_, rfl, (hx'.pointPast hd).seek h3.pos⟩

instance : Place Vector3.codec := by unfold Vector3.codec; infer_instance
instance : Place Mesh.BoundingSphere.codec := by unfold Mesh.BoundingSphere.codec; infer_instance
instance : Place MeshEx.MeshEntry.codec := by unfold MeshEx.MeshEntry.codec; infer_instance
instance : Place MeshEx.AllData.codec := by unfold MeshEx.AllData.codec; infer_instance
instance : Place MeshEx.MeshObjectGroup.codec := by unfold MeshEx.MeshObjectGroup.codec; infer_instance
instance : Place (MeshEx.flagsCodec n) := by unfold MeshEx.flagsCodec; infer_instance
instance : Place (MeshEx.rest n m) := by unfold MeshEx.rest; infer_instance

/-- The length of a stream after a MeshEx file was written, in terms of the file alone. -/
theorem meshEx_place {v : MeshEx} {buf out : Bytes} {k q : Nat} (hk : 16 ∣ k) (h : v.writeStream buf k = .ok (out, q)) :
    ∃ file, v.write = .ok file ∧ out.length = max (roundUp buf.length 16) (k + file.length) := by
  simp only [MeshEx.writeStream, MeshEx.ssbhWrite] at h
  split at h
  · cases h
  rename_i w4 h4
  cases h
  split at h4
  · cases h4
  rename_i hcount
  split at h4
  · cases h4
  rename_i w3 h3
  split at h4
  rotate_left
  · cases h4
  rename_i hlt
  cases h4
  have h0 : Placed k [.data 0 buf] ((W.init.bump 64).put (leBytes 8 0)) (((⟨[.data 0 buf], k, 0⟩ : W).bump 64).put (leBytes 8 0)) := by
    refine Placed.put ⟨⟨[.obj k 64], rfl, rfl⟩, ?_, ?_⟩ _
    · simp [W.bump, W.init]
    · simp [W.bump, W.init]; omega
  have hplace : Place (pair u32 (pair u32 (MeshEx.rest 0 0))) := inferInstance
  obtain ⟨x, hx, hx'⟩ := hplace.write _ k _ _ _ hk h0 w3 h3
  have h00 : Placed 0 ((W.init.bump 64).put (leBytes 8 0)).log ⟨[], 8, 64⟩ ((W.init.bump 64).put (leBytes 8 0)) :=
    ⟨⟨[], rfl, rfl⟩, rfl, rfl⟩
  obtain ⟨y, -, hy⟩ := hplace.write _ 0 _ _ _ ⟨0, rfl⟩ h00 x hx
  obtain ⟨P, hP, -⟩ := hy.log
  have h8 : 8 ≤ (render x.log).length := by
    rw [hP]
    exact render_le_append P ((W.init.bump 64).put (leBytes 8 0)).log
  obtain ⟨M, hM, hM'⟩ := hx'.log
  have hsize : (render w3.log).length = max buf.length (k + (render x.log).length) := by
    rw [hM, render_length_place hM', if_neg (by intro h0; rw [h0] at h8; simp at h8), render_single]
  have hround : roundUp (render w3.log).length 16 = max (roundUp buf.length 16) (k + roundUp (render x.log).length 16) := by
    rw [hsize, roundUp_max, Nat.add_comm k, roundUp_move hk, Nat.add_comm _ k]
  have hend : ∀ (w : W), 8 ≤ w.buf.length →
      (((alignEnd 16 w).seek 0).put (leBytes 8 (roundUp w.buf.length 16))).buf.length = roundUp w.buf.length 16 := by
    intro w hw
    have hle := le_roundUp (v := w.buf.length) (n := 16) (by decide)
    have e : (((alignEnd 16 w).seek 0).put (leBytes 8 (roundUp w.buf.length 16))).buf =
        putAt (putAt w.buf w.buf.length (List.replicate (roundUp w.buf.length 16 - w.buf.length) 0)) 0
          (leBytes 8 (roundUp w.buf.length 16)) := by
      simp only [W.buf, W.put, W.seek, alignEnd, render]
    rw [e]
    rw [putAt_length, putAt_length, if_neg (by intro h0; have := congrArg List.length h0; rw [leBytes_length] at this; cases this),
      leBytes_length]
    split
    · rename_i h0
      have h0 := congrArg List.length h0
      simp only [List.length_replicate, List.length_nil] at h0
      omega
    · rw [List.length_replicate]
      omega
  have hx16 := hend x h8
  have hw16 := hend w3 (by show 8 ≤ (render w3.log).length; omega)
  refine ⟨(((alignEnd 16 x).seek 0).put (leBytes 8 (roundUp x.buf.length 16))).buf, ?_, ?_⟩
  · simp only [MeshEx.write, MeshEx.ssbhWrite, if_neg hcount, hx]
    rw [if_pos]
    have : roundUp w3.buf.length 16 = _ := hround
    show roundUp (render x.log).length 16 < _
    omega
  · rw [hx16, hw16]
    exact hround

/-- A trace on a buffer of zeros. -/
theorem render_zeros (n : Nat) : ∀ (N : List Ev),
    render (N ++ [.data 0 (List.replicate n 0)]) = render N ++ List.replicate (n - (render N).length) 0
  | [] => by
    show putAt [] 0 (List.replicate n 0) = [] ++ List.replicate (n - 0) 0
    unfold putAt
    split
    · rename_i h; simp [h]
    · simp
  | .ptr .. :: N => render_zeros n N
  | .obj .. :: N => render_zeros n N
  | .data p bs :: N => by
    show putAt (render (N ++ [.data 0 (List.replicate n 0)])) p bs = putAt (render N) p bs ++ List.replicate (n - (putAt (render N) p bs).length) 0
    rw [render_zeros n N]
    generalize render N = x
    by_cases hbs : bs = []
    · simp [putAt, hbs]
    refine List.ext_getElem? fun i => ?_
    rw [getElem?_putAt, List.getElem?_append, List.getElem?_append, getElem?_putAt, putAt_length, if_neg hbs,
      List.length_append, List.length_replicate, List.getElem?_replicate, List.getElem?_replicate]
    have hl := List.length_pos_of_ne_nil hbs
    by_cases h1 : p ≤ i ∧ i < p + bs.length
    · rw [if_pos h1, if_pos (by omega), if_pos h1]
    · rw [if_neg h1, if_neg h1]
      by_cases h2 : i < x.length
      · rw [if_neg (by omega), if_pos h2, if_pos (by omega), if_neg (by omega)]
      · rw [if_neg h2]
        by_cases h3 : i < p
        · rw [if_pos (show i < max x.length (p + bs.length) by omega), if_pos (show x.length ≤ i ∧ i < p ∧ bs ≠ [] from ⟨by omega, h3, hbs⟩)]
          by_cases h4 : i < n
          · rw [if_neg (by omega), if_pos (by omega)]
          · rw [if_pos ⟨by omega, h3, hbs⟩]
        · rw [if_neg (show ¬ (x.length + (n - x.length) ≤ i ∧ i < p ∧ bs ≠ []) by omega),
            if_neg (show ¬ i < max x.length (p + bs.length) by omega)]
          by_cases h4 : i < n
          · rw [if_pos (by omega), if_pos (by omega)]
          · rw [if_neg (by omega), if_neg (by omega)]

end Verif.Props
