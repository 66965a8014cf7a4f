import Verif.Derive.Model
import Verif.Formats.Ssbh
/-!
# Writers which are the derived ones

The writers in `Verif.Formats` are the derived ones for the definitions of the types, on a platform with 64 bits.
-/

namespace Verif.Derive

/-- The codec writes what is derived for `t`. -/
class Derives (c : Codec α) (t : outParam Ty) where
  val : α → t.Val
  size : ∀ v, c.size v = (t.codec p64).size (val v)
  write : ∀ v w, c.write v w = (t.codec p64).write (val v) w

/-- Also with the alignment. -/
class DerivesP (c : Codec α) (t : outParam Ty) extends Derives c t where
  align : c.align = t.align p64

/-- Fields, and padding after them. -/
class DerivesF (c : Codec α) (pad : outParam (Option Nat)) (fs : outParam Fields) where
  val : α → fs.Val
  size : ∀ v, c.size v = (fs.codec p64).size (val v) + pad.getD 0
  write : ∀ v w, c.write v w = andAfter pad none ((fs.codec p64).write (val v) w)

/-- The data of a `SsbhEnum64`. -/
class DerivesT (c : Tagged α) (tags : outParam (List UInt64)) (t : outParam Ty) where
  val : α → t.Val
  write : ∀ v w, c.write v w = (t.codec p64).write (val v) w
  align : c.align = t.align p64
  tag : ∀ v, c.tag v = (tags.getD (t.index (val v)) 0).toNat

/-! ## Basic types -/

def numberVal (n x : Nat) (h : x < 256 ^ n) : (Ty.number n).Val := (⟨x, h⟩ : Fin (256 ^ n))

instance : Derives Verif.u8 (.number 1) := ⟨fun v => numberVal 1 v.toNat v.toNat_lt, fun _ => rfl, fun _ _ => rfl⟩
instance : Derives Verif.u16 (.number 2) := ⟨fun v => numberVal 2 v.toNat v.toNat_lt, fun _ => rfl, fun _ _ => rfl⟩
instance : Derives Verif.u32 (.number 4) := ⟨fun v => numberVal 4 v.toNat v.toNat_lt, fun _ => rfl, fun _ _ => rfl⟩
instance : Derives Verif.f32 (.number 4) := ⟨fun v => numberVal 4 v.toNat v.toNat_lt, fun _ => rfl, fun _ _ => rfl⟩
instance : Derives Verif.u64 (.number 8) := ⟨fun v => numberVal 8 v.toNat v.toNat_lt, fun _ => rfl, fun _ _ => rfl⟩
instance : Derives Verif.i16 (.number 2) :=
  ⟨fun v => numberVal 2 v.toUInt16.toNat v.toUInt16.toNat_lt, fun _ => rfl, fun _ _ => rfl⟩
instance : Derives Verif.i32 (.number 4) :=
  ⟨fun v => numberVal 4 v.toUInt32.toNat v.toUInt32.toNat_lt, fun _ => rfl, fun _ _ => rfl⟩
instance : Derives unitC .unit := ⟨id, fun _ => rfl, fun _ _ => rfl⟩
instance : Derives bitfield32 (.bitfield 4) :=
  ⟨fun v => (⟨v.toNat, v.toNat_lt⟩ : Fin (256 ^ 4)), fun _ => rfl, fun _ _ => rfl⟩
instance : Derives byteBuffer .buffer := ⟨id, fun _ => rfl, fun _ _ => rfl⟩
instance : Derives (ssbhStringN n) (.text n) := ⟨id, fun _ => rfl, fun _ _ => rfl⟩
instance : Derives ssbhString (.text 4) := ⟨id, fun _ => rfl, fun _ _ => rfl⟩
instance : Derives ssbhString8 (.text 8) := ⟨id, fun _ => rfl, fun _ _ => rfl⟩

@[reducible] def reprDerives {n : Nat} {tags : List Nat} (m : Nat) (h : ∀ t ∈ tags, t < 256 ^ n) :
    Derives (reprEnum n tags) (.repr {} n m) :=
  ⟨fun v => (⟨v.tag, h _ v.mem⟩ : Fin (256 ^ n)), fun _ => rfl, fun _ _ => rfl⟩

/-! ## Sequences -/

theorem sliceSize_map {c : Codec α} {d : Codec β} {f : α → β} (h : ∀ v, c.size v = d.size (f v)) (vs : List α) :
    sliceSize c vs = sliceSize d (vs.map f) := by
  cases vs with
  | nil => rfl
  | cons v vs => simp [sliceSize, h]

theorem writeElems_map {c : Codec α} {d : Codec β} {f : α → β} (h : ∀ v w, c.write v w = d.write (f v) w) :
    ∀ (vs : List α) (w : W), writeElems c vs w = writeElems d (vs.map f) w
  | [], _ => rfl
  | v :: vs, w => by
    simp only [writeElems, List.map_cons, h]
    cases d.write (f v) w with
    | error e => rfl
    | ok w1 => exact writeElems_map h vs w1

theorem writeSlice_map {c : Codec α} {d : Codec β} {f : α → β} (h1 : ∀ v, c.size v = d.size (f v))
    (h2 : ∀ v w, c.write v w = d.write (f v) w) (vs : List α) (w : W) :
    writeSlice c vs w = writeSlice d (vs.map f) w := by
  rw [writeSlice, writeSlice, writeElems_map h2, sliceSize_map h1]

instance {c : Codec α} [h : Derives c t] : Derives (array c) (.list t) where
  val := List.map h.val
  size _ := rfl
  write vs w := by
    show (array c).write vs w = (array (t.codec p64)).write (vs.map h.val) w
    simp only [array, List.length_map]
    cases writeArrayHeader vs.length (w.bump 16) with
    | error e => rfl
    | ok w1 =>
      show _ = (match writeSlice (t.codec p64) (vs.map h.val) (w1.seek w1.dp) with
        | .error e => (.error e : Except WErr W)
        | .ok w2 => .ok (w2.seek w1.pos))
      rw [← writeSlice_map h.size h.write]
      rfl

instance {c : Codec α} [h : Derives c t] : Derives (arrayN n c) (.array n t) where
  val v := Vector.map h.val v
  size v := by
    show sliceSize c v.toList = sliceSize (t.codec p64) (v.map h.val).toList
    rw [sliceSize_map h.size, Vector.toList_map]
  write v w := by
    show writeSlice c v.toList w = writeSlice (t.codec p64) (v.map h.val).toList w
    rw [writeSlice_map h.size h.write, Vector.toList_map]

/-! ## Pointers -/

theorem relPtr_map {c : Codec α} {d : Codec β} {f : α → β} (h : ∀ v w, c.write v w = d.write (f v) w) (ha : c.align = d.align)
    (v : Option α) (w : W) : (relPtr c).write v w = (relPtr d).write (v.map f) w := by
  cases v with
  | none => rfl
  | some v => simp only [relPtr, writeRelPtrAligned, Option.map_some, h, ha]

instance {c : Codec α} [h : DerivesP c t] : Derives (relPtr c) (.ptr t) where
  val := Option.map h.val
  size _ := rfl
  write v w := relPtr_map (d := t.codec p64) h.write (by rw [h.align]; cases t <;> rfl) v w

instance {c : Tagged α} [h : DerivesT c tags t] : Derives (enum64 c) (.tagged tags t) where
  val := Option.map h.val
  size _ := rfl
  write v w := by
    have h1 := relPtr_map (c := c.codec 0) (d := t.codec p64) h.write (by
      show c.align = _
      rw [h.align]; cases t <;> rfl) v (w.bump 16)
    cases v with
    | none => rfl
    | some v =>
      show (match (relPtr (c.codec 0)).write (some v) (w.bump 16) with
        | .error e => (.error e : Except WErr W)
        | .ok w1 => putU64 (c.tag v) w1) =
        (match (relPtr (t.codec p64)).write (some (h.val v)) (w.bump 16) with
        | .error e => (.error e : Except WErr W)
        | .ok w1 => putU64 (tags.getD (t.index (h.val v)) 0).toNat w1)
      rw [h1, h.tag]
      rfl

/-! ## Structures -/

instance (priority := low) {c : Codec α} [h : Derives c t] : DerivesF c none (.cons none none t .nil) where
  val v := (h.val v, ())
  size v := h.size v
  write v w := by
    show _ = andAfter none none (match andAfter none none ((t.codec p64).write (h.val v) w) with
      | .error e => (.error e : Except WErr W)
      | .ok w1 => .ok w1)
    rw [h.write]
    cases (t.codec p64).write (h.val v) w <;> rfl

instance {a : Codec α} {b : Codec β} [ha : Derives a t] [hb : DerivesF b pad fs] :
    DerivesF (pair a b) pad (.cons none none t fs) where
  val v := (ha.val v.1, hb.val v.2)
  size v := by
    show a.size v.1 + b.size v.2 = (t.codec p64).size (ha.val v.1) + 0 + (fs.codec p64).size (hb.val v.2) + pad.getD 0
    rw [ha.size, hb.size]; omega
  write v w := by
    show _ = andAfter pad none (match andAfter none none ((t.codec p64).write (ha.val v.1) w) with
      | .error e => (.error e : Except WErr W)
      | .ok w1 => (fs.codec p64).write (hb.val v.2) w1)
    simp only [pair, ha.write]
    cases (t.codec p64).write (ha.val v.1) w with
    | error e => rfl
    | ok w1 => exact hb.write v.2 w1

instance {a : Codec α} {to : β → α} {fr} {hh} [ha : DerivesF a pad fs] : DerivesF (iso a to fr hh) pad fs where
  val v := ha.val (to v)
  size v := ha.size (to v)
  write v w := ha.write (to v) w

theorem andAfter_pad (n : Nat) (r : Except WErr W) : andAfter (some n) none r =
    match r with | .ok w1 => .ok (w1.put (List.replicate n 0)) | .error e => .error e := by cases r <;> rfl

theorem andAfter_none (r : Except WErr W) : andAfter none none r = r := by cases r <;> rfl

instance {a : Codec α} {n : Nat} [ha : DerivesF a none fs] : DerivesF (padAfter n a) (some n) fs where
  val := ha.val
  size v := by
    show a.size v + n = _
    rw [ha.size]; rfl
  write v w := by
    have := ha.write v w
    rw [andAfter_none] at this
    rw [andAfter_pad, ← this]
    rfl

instance {a : Codec α} {n : Nat} [ha : DerivesF a none fs] : DerivesF (padAfterWrite n a) (some n) fs where
  val := ha.val
  size v := by
    show a.size v + n = _
    rw [ha.size]; rfl
  write v w := by
    have := ha.write v w
    rw [andAfter_none] at this
    rw [andAfter_pad, ← this]
    rfl

@[reducible] def structDerives {al : Nat} {a : Codec α} [ha : DerivesF a pad fs] : Derives (struct al a) (.named { padAfter := pad } fs) where
  val := ha.val
  size v := ha.size v
  write v w := by
    show a.write v (w.bump (a.size v)) = andAfter pad none (match Except.ok (w.bump ((fs.codec p64).size (ha.val v) + pad.getD 0 + 0)) with
      | .error e => (.error e : Except WErr W)
      | .ok w1 => (fs.codec p64).write (ha.val v) w1)
    rw [ha.write, ha.size]
    rfl

@[reducible] def DerivesP.of {c : Codec α} (h : Derives c t) (ha : c.align = t.align p64) : DerivesP c t := { h with align := ha }

instance : DerivesP ssbhString (.text 4) := .of inferInstance rfl
instance : DerivesP Verif.u64 (.number 8) := .of inferInstance rfl

/-! ## Enums and files -/

/-- A variant of an enum, with the data pointer moved before and padding after it. -/
class DerivesV (c : Codec α) (pad : outParam (Option Nat)) (fs : outParam Fields) where
  val : α → fs.Val
  size : ∀ v, c.size v = (fs.codec p64).size (val v) + pad.getD 0
  write : ∀ v w, c.write v w =
    andAfter pad none ((fs.codec p64).write (val v) (w.bump ((fs.codec p64).size (val v) + pad.getD 0)))

@[reducible] def structVariant {al : Nat} {a : Codec α} [h : DerivesF a pad fs] : DerivesV (struct al a) pad fs where
  val := h.val
  size := h.size
  write v w := by
    show a.write v (w.bump (a.size v)) = _
    rw [h.write, h.size]

instance {al : Nat} {a : Codec α} [h : DerivesF a pad fs] : DerivesV (struct al a) pad fs := structVariant

/-- The first variant. -/
def Variants.first {p a fs vs} (v : Fields.Val fs) : Variants.Val (.cons p a fs vs) := Sum.inl v
/-- One of the other variants. -/
def Variants.later {p a fs vs} (v : Variants.Val vs) : Variants.Val (.cons p a fs vs) := Sum.inr v

/-- A value of an enum is written by `c`, up to the last padding `pad` and `A` and the padding `B` of the variant. -/
structure Is (A B : Option Nat) (vs : Variants) (x : vs.Val) (c : Codec α) (pad : Option Nat) (v : α) : Prop where
  size : c.size v = (vs.codec p64).size x + pad.getD 0
  write : ∀ w, ∃ r, c.write v w = andAfter pad none r ∧
    andAfter pad A ((vs.codec p64).write x (w.bump ((vs.codec p64).size x + pad.getD 0))) = andAfter pad A (andAfter none B r)

theorem Is.first {c : Codec α} [h : DerivesV c pad fs] (A B : Option Nat) (vs : Variants) (v : α) :
    Is A B (.cons none B fs vs) (Variants.first (h.val v)) c pad v :=
  ⟨h.size v, fun w => ⟨_, h.write v w, rfl⟩⟩

theorem Is.later {A B p a fs vs} {x : vs.Val} {c : Codec α} {pad} {v : α} (h : Is A B vs x c pad v) :
    Is A B (.cons p a fs vs) (Variants.later x) c pad v := ⟨h.size, h.write⟩

theorem Is.tagged {vs : Variants} {x : vs.Val} {c : Codec α} {v : α} (h : Is none none vs x c none v) (w : W) :
    c.write v w = ((Ty.enum {} vs).codec p64).write x w := by
  obtain ⟨r, h1, h2⟩ := h.write w
  rw [h1]
  refine Eq.trans ?_ h2.symm
  rw [andAfter_none, andAfter_none]

/-- The last padding of a file. -/
def finish (n : Nat) : Except WErr W → Except WErr W
  | .error e => .error e
  | .ok w => .ok (if n = 1 then w else alignEnd n w)

theorem Is.fileSize {A B : Option Nat} {vs : Variants} {x : vs.Val} {c : Codec α} {pad : Option Nat} {v : α}
    (h : Is A B vs x c pad v) : c.size v = ((Ty.enum { padAfter := pad, alignAfter := A } vs).codec p64).size x := h.size

theorem Is.file {A B : Option Nat} {vs : Variants} {x : vs.Val} {c : Codec α} {pad : Option Nat} {v : α}
    (h : Is A B vs x c pad v) {n : Nat}
    (hn : ∀ w, (if n = 1 then writePadAfter pad w else alignEnd n (writePadAfter pad w)) =
      writeAlignedAfter A (writePadAfter pad (writeAlignedAfter B w))) (w : W) :
    finish n (c.write v w) = ((Ty.enum { padAfter := pad, alignAfter := A } vs).codec p64).write x w := by
  obtain ⟨r, h1, h2⟩ := h.write w
  rw [h1]
  refine Eq.trans ?_ h2.symm
  cases r with
  | error e => rfl
  | ok w1 => exact congrArg Except.ok (hn w1)

/-- `write_ssbh_file` for the derived writer of the type, into an empty stream: /repo/ssbh_lib/src/lib.rs:792-808 -/
def Ty.file (P : Platform) (magic : Bytes) (version : UInt16 × UInt16) (t : Ty) (v : t.Val) : Except WErr Bytes :=
  let w := writeSsbhHeader magic W.init
  let w := w.setDp (w.pos + ((t.codec P).size v + 4))
  match (t.codec P).write v ((w.put (leBytes 2 version.1.toNat)).put (leBytes 2 version.2.toNat)) with
  | .error e => .error e
  | .ok w => .ok w.buf

/-- A file type whose writer is the derived one. -/
class DerivesFile (α : Type) [s : SsbhType α] (t : outParam Ty) where
  val : α → t.Val
  size : ∀ v, s.format.size v = (t.codec p64).size (val v)
  write : ∀ v w, finish (s.format.alignAfter v) (s.format.write v w) = (t.codec p64).write (val v) w

theorem DerivesFile.bytes [s : SsbhType α] [h : DerivesFile α t] (v : α) :
    writeAs v = Ty.file p64 s.format.magic (s.format.version v) t (h.val v) := by
  unfold writeAs Format.toBytes Format.writeFile Format.writeTo Format.writeBodyTo Ty.file
  simp only [← h.write, ← h.size]
  generalize s.format.write v _ = r
  cases r <;> rfl

end Verif.Derive
