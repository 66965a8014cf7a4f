import Verif.Data.Text
import Verif.Float.Ieee
/-!
# JSON

The feature `serde` of the crates, with `serde_json`. The model is about JSON values; the text of
a value is in `Verif.Json.Text`. The derived implementations of `serde` are modelled by one function per kind of type.
-/

namespace Verif

/-- A JSON value. Numbers are integers, or floats as the `f32` they are read as. An object has its entries in the order of
the text. -/
inductive J where
  | null
  | bool (b : Bool)
  | num (n : Int)
  | flt (x : F32)
  | str (s : String)
  | arr (l : List J)
  | obj (l : List (String × J))

/-- `Serialize` and `Deserialize` of a type. `miss` is the value of a field which is missing in an object (only optional
fields have one). Errors of `Deserialize` have no kind here. -/
structure JCodec (α : Type) where
  ser : α → J
  de : J → Option α
  miss : Option α

namespace JCodec

/-- `bool` -/
def boolean : JCodec Bool where
  ser := .bool
  de | .bool b => some b
     | _ => none
  miss := none

/-- An integer type with the values from `lo` to `hi`. -/
def integer (lo hi : Int) (to' : α → Int) (of : Int → α) : JCodec α where
  ser v := .num (to' v)
  de | .num n => if lo ≤ n ∧ n ≤ hi then some (of n) else none
     | _ => none
  miss := none

def u8 : JCodec UInt8 := integer 0 (2 ^ 8 - 1) (fun x => x.toNat) (fun n => UInt8.ofNat n.toNat)
def u16 : JCodec UInt16 := integer 0 (2 ^ 16 - 1) (fun x => x.toNat) (fun n => UInt16.ofNat n.toNat)
def u32 : JCodec UInt32 := integer 0 (2 ^ 32 - 1) (fun x => x.toNat) (fun n => UInt32.ofNat n.toNat)
def u64 : JCodec UInt64 := integer 0 (2 ^ 64 - 1) (fun x => x.toNat) (fun n => UInt64.ofNat n.toNat)
def i16 : JCodec Int16 := integer (-2 ^ 15) (2 ^ 15 - 1) Int16.toInt Int16.ofInt
def i32 : JCodec Int32 := integer (-2 ^ 31) (2 ^ 31 - 1) Int32.toInt Int32.ofInt

/-- `usize` on a 64 bit machine. -/
def usize : JCodec Nat := integer 0 (2 ^ 64 - 1) (fun x => x) Int.toNat

/-- `f32`: `serde_json` writes infinities and NaN as `null`, which is not accepted for a float. Integers are. -/
def f32 : JCodec F32 where
  ser x := if (Ieee.ofBits x).isNan || (Ieee.ofBits x).isInf then .null else .flt x
  de | .flt x => some x
     | .num n =>
       if 0 ≤ n then some (Ieee.toBits (Ieee.Fl.ofNat n.toNat))
       else some (Ieee.toBits (Ieee.Fl.neg' (Ieee.Fl.ofNat n.natAbs)))
     | _ => none
  miss := none

/-- `String` -/
def string : JCodec String where
  ser := .str
  de | .str s => some s
     | _ => none
  miss := none

/-- `deserialize_str_bytes`, /repo/ssbh_lib/src/strings.rs:87-96: the bytes in the string. -/
def deTextBytes : J → Option Bytes
  | .str s => some (textBytes s)
  | _ => none

/-- `CString`: /repo/ssbh_lib/src/strings.rs:26-37,78-96. A text with zero bytes gives a string with zero bytes, which
no `CStr` is; here this is `none` (see `C63_nul`). -/
def cstr : JCodec CStr where
  ser c := .str ((CStr.fromBytes c.bytes).toStr.getD "")
  de j :=
    match deTextBytes j with
    | none => none
    | some b => if h : (0 : UInt8) ∉ b then some ⟨b, h⟩ else none
  miss := none

/-- `hex::encode` of half a byte. -/
def hexDigit (n : Nat) : Char := if n < 10 then Char.ofNat (48 + n) else Char.ofNat (87 + n)

/-- `hex::encode` -/
def hexEncode : Bytes → List Char
  | [] => []
  | b :: bs => hexDigit (b.toNat / 16) :: hexDigit (b.toNat % 16) :: hexEncode bs

def hexValue (c : Char) : Option Nat :=
  if '0' ≤ c ∧ c ≤ '9' then some (c.toNat - 48)
  else if 'a' ≤ c ∧ c ≤ 'f' then some (c.toNat - 87)
  else if 'A' ≤ c ∧ c ≤ 'F' then some (c.toNat - 55)
  else none

/-- `hex::decode` -/
def hexDecode : List Char → Option Bytes
  | [] => some []
  | [_] => none
  | c :: d :: cs =>
    match hexValue c, hexValue d, hexDecode cs with
    | some x, some y, some bs => some (UInt8.ofNat (16 * x + y) :: bs)
    | _, _, _ => none

/-- `SsbhByteBuffer` with the feature `serde_hex`, as in ssbh_lib_json: /repo/ssbh_lib/src/arrays.rs:23-37,92-108. -/
def hex : JCodec Bytes where
  ser bs := .str (String.ofList (hexEncode bs))
  de | .str s => hexDecode s.toList
     | _ => none
  miss := none

/-- `()` -/
def unit : JCodec Unit where
  ser _ := .null
  de | .null => some ()
     | _ => none
  miss := none

def deList (c : JCodec α) : List J → Option (List α)
  | [] => some []
  | j :: js =>
    match c.de j, deList c js with
    | some x, some xs => some (x :: xs)
    | _, _ => none

/-- `Vec<T>` -/
def vec (c : JCodec α) : JCodec (List α) where
  ser l := .arr (l.map c.ser)
  de | .arr l => deList c l
     | _ => none
  miss := none

/-- `[T; N]` -/
def arrayN (n : Nat) (c : JCodec α) : JCodec (Vector α n) where
  ser v := .arr (v.toList.map c.ser)
  de | .arr l =>
       match deList c l with
       | some xs => if h : xs.toArray.size = n then some ⟨xs.toArray, h⟩ else none
       | none => none
     | _ => none
  miss := none

/-- `Option<T>` -/
def option (c : JCodec α) : JCodec (Option α) where
  ser | none => .null
      | some v => c.ser v
  de | .null => some none
     | j =>
       match c.de j with
       | some v => some (some v)
       | none => none
  miss := some none

/-- A newtype, which is written as the type inside. A missing field is an error. `Ptr` is transparent instead and keeps
`miss`. -/
def newtype (c : JCodec α) : JCodec α := { c with miss := none }

/-- `RelPtr64<T>`, /repo/ssbh_lib/src/lib.rs:406-411 -/
def relPtr (c : JCodec α) : JCodec (Option α) := newtype (option c)

/-- `Ptr<P, T>`, /repo/ssbh_lib/src/lib.rs:330-339 -/
def ptr (c : JCodec α) : JCodec (Option α) := option c

/-- `SsbhStringN`, /repo/ssbh_lib/src/strings.rs:9-13 -/
def ssbhString : JCodec SsbhString := newtype (relPtr (newtype cstr))

/-- `SsbhArray<T>` (transparent), /repo/ssbh_lib/src/arrays.rs:138-145 -/
def array (c : JCodec α) : JCodec (List α) := vec c

/-- An enum without data: the name of the variant. -/
def enumNames (names : List String) (tags : List Nat) : JCodec (ReprEnum tags) where
  ser v := .str (((tags.zip names).lookup v.tag).getD "")
  de | .str s => ((names.zip tags).lookup s).bind (ReprEnum.ofNat tags)
     | .obj [(s, .null)] => ((names.zip tags).lookup s).bind (ReprEnum.ofNat tags)
     | _ => none
  miss := none

/-- The same for an enum with constructors. -/
def variants [DecidableEq α] (l : List (String × α)) : JCodec α where
  ser v := .str (((l.find? (fun e => e.2 = v)).map (·.1)).getD "")
  de | .str s => l.lookup s
     | .obj [(s, .null)] => l.lookup s
     | _ => none
  miss := none

/-- The JSON of another type. -/
def via (c : JCodec β) (to' : α → β) (of : β → α) : JCodec α where
  ser v := c.ser (to' v)
  de j := (c.de j).map of
  miss := c.miss.map of

/-- `deserialize_with` a function which reads an `Option` and takes `d` for `None`. There is no value for a missing field. -/
def orNull (c : JCodec α) (d : α) : JCodec α where
  ser := c.ser
  de j := ((option c).de j).map (fun o => o.getD d)
  miss := none

end JCodec

/-- The fields of a struct: from an object by name, or from an array by position. -/
structure JRec (α : Type) where
  names : List String
  ser : α → List J
  de : (String → Option J) → Option α
  deSeq : List J → Option (α × List J)

namespace JRec

/-- A field. -/
def field (name : String) (c : JCodec α) : JRec α where
  names := [name]
  ser v := [c.ser v]
  de get :=
    match get name with
    | some j => c.de j
    | none => c.miss
  deSeq
    | j :: js =>
      match c.de j with
      | some v => some (v, js)
      | none => none
    | [] => none

/-- A field with `serde(default)`, or of a struct with it: `d` if it is missing, also at the end of an array. -/
def fieldOr (name : String) (c : JCodec α) (d : α) : JRec α where
  names := [name]
  ser v := [c.ser v]
  de get :=
    match get name with
    | some j => c.de j
    | none => some d
  deSeq
    | j :: js =>
      match c.de j with
      | some v => some (v, js)
      | none => none
    | [] => some (d, [])

/-- More fields. -/
def and (r : JRec α) (s : JRec β) : JRec (α × β) where
  names := r.names ++ s.names
  ser v := r.ser v.1 ++ s.ser v.2
  de get :=
    match r.de get, s.de get with
    | some x, some y => some (x, y)
    | _, _ => none
  deSeq js :=
    match r.deSeq js with
    | none => none
    | some (x, js) =>
      match s.deSeq js with
      | none => none
      | some (y, js) => some ((x, y), js)

end JRec

namespace JCodec

/-- More than one entry with the same known name. -/
def duplicate (names : List String) (l : List (String × J)) : Bool :=
  names.any (fun n => decide (1 < (l.filter (fun e => e.1 == n)).length))

/-- A struct with derived implementations. Unknown names are ignored. -/
def struct (r : JRec β) (to' : α → β) (of : β → α) : JCodec α where
  ser v := .obj (r.names.zip (r.ser (to' v)))
  de | .obj l => if duplicate r.names l then none else (r.de (fun n => l.lookup n)).map of
     | .arr l =>
       match r.deSeq l with
       | some (x, []) => some (of x)
       | _ => none
     | _ => none
  miss := none

/-- A bit field of two bytes, /repo/ssbh_lib/src/formats/meshex.rs:78-98: `modular_bitfield` makes a struct with the one
field `bytes`. -/
def bitfield16 : JCodec UInt16 :=
  struct (.field "bytes" (arrayN 2 u8))
    (fun x => (⟨((leBytes 2 x.toNat).toArray), by simp [leBytes]⟩ : Vector UInt8 2))
    (fun v => UInt16.ofNat (fromLe v.toList))

/-- A bit field of four bytes, /repo/ssbh_lib/src/formats/anim.rs:191-208. -/
def bitfield32 : JCodec UInt32 :=
  struct (.field "bytes" (arrayN 4 u8))
    (fun x => (⟨((leBytes 4 x.toNat).toArray), by simp [leBytes]⟩ : Vector UInt8 4))
    (fun v => UInt32.ofNat (fromLe v.toList))

/-- `SsbhEnum64<T>`, /repo/ssbh_lib/src/enums.rs:62-64 -/
def enum64 (c : JCodec α) : JCodec (Option α) := struct (.field "data" (relPtr c)) id id

end JCodec

end Verif
