import Verif.Derive.Model
/-!
# The input of the derive macro

Attributes as `syn` parses them, the options the macro takes from them, and the definition of a type as it is given to
`#[derive(SsbhWrite)]`. Used for C87.
-/

namespace Verif.Derive

/-- The literals `syn::Lit`. The macro looks at integers and byte strings only. A negative integer is a literal too. -/
inductive Lit where
  | int (n : Int)
  | bytes (b : Bytes)
  /-- Strings, characters, floats, booleans. -/
  | other (text : String)
  deriving DecidableEq

/-- A path: the names between the `::`. One name is an identifier. -/
abbrev Path := List String

mutual
/-- `syn::Meta` -/
inductive Meta where
  /-- `name` -/
  | path (p : Path)
  /-- `name(args)`, or `name(args,)` -/
  | list (p : Path) (args : List Nested) (comma : Bool := false)
  /-- `name = literal` -/
  | nameValue (p : Path) (l : Lit)

/-- `syn::NestedMeta` -/
inductive Nested where
  | item (m : Meta)
  | lit (l : Lit)
end

/-- `syn::Attribute`. `other` is one that is no `Meta`, for example `#[br(assert(a == b))]`. -/
inductive Attribute where
  | item (m : Meta)
  | other (p : Path)

/-- `attr.path` -/
def Attribute.path : Attribute → Path
  | .item (.path p) => p
  | .item (.list p _ _) => p
  | .item (.nameValue p _) => p
  | .other p => p

/-- Why the macro or the compiler does not accept a type. -/
inductive Reject where
  /-- `unwrap` of an integer that is no `usize`: /repo/ssbh_write_derive/src/lib.rs:54 -/
  | integer
  /-- `unwrap` of a path that is no identifier: /repo/ssbh_write_derive/src/lib.rs:283 -/
  | path
  /-- `panic!("Unrecognized attribute")`: /repo/ssbh_write_derive/src/lib.rs:288 -/
  | unrecognized
  /-- `panic!("Unsupported type")`: /repo/ssbh_write_derive/src/lib.rs:102 -/
  | unsupported
  /-- `panic!("expected an enum with fields")`: /repo/ssbh_write_derive/src/lib.rs:153,196 -/
  | unitVariant
  /-- The generated code does not compile. -/
  | code
  deriving DecidableEq

/-- /repo/ssbh_write_derive/src/lib.rs:17-24 -/
structure WriteOptions where
  padAfter : Option Nat := none
  alignAfter : Option Nat := none
  alignment : Option Nat := none
  repr : Option String := none
  magic : Option Bytes := none
  deriving DecidableEq

/-- /repo/ssbh_write_derive/src/lib.rs:34-49: the arguments are `repr(name)` and nothing else. Names are no keywords of
Rust, which `syn` accepts in a `Meta` but not as an `Ident`. -/
def getRepr : Attribute → Option String
  | .item (.list _ [.item (.list ["repr"] [.item (.path [name])] false)] false) => some name
  | _ => none

/-- /repo/ssbh_write_derive/src/lib.rs:51-57 on platforms with 64 bits, where the macro runs. -/
def getUsizeArg : Lit → Except Reject (Option Nat)
  | .int n => if 0 ≤ n ∧ n < 2 ^ 64 then .ok (some n.toNat) else .error .integer
  | _ => .ok none

/-- /repo/ssbh_write_derive/src/lib.rs:59-65 -/
def getByteStringArg : Lit → Option Bytes
  | .bytes b => some b
  | _ => none

/-- The body of the inner loop: /repo/ssbh_write_derive/src/lib.rs:282-290 -/
def addNested (o : WriteOptions) : Nested → Except Reject WriteOptions
  | .item (.nameValue [name] l) =>
    if name = "pad_after" then do return { o with padAfter := ← getUsizeArg l }
    else if name = "align_after" then do return { o with alignAfter := ← getUsizeArg l }
    else if name = "alignment" then do return { o with alignment := ← getUsizeArg l }
    else if name = "magic" then .ok { o with magic := getByteStringArg l }
    else .error .unrecognized
  | .item (.nameValue _ _) => .error .path
  | _ => .ok o

/-- The body of the outer loop: /repo/ssbh_write_derive/src/lib.rs:273-292 -/
def addAttribute (o : WriteOptions) (a : Attribute) : Except Reject WriteOptions :=
  if a.path = ["ssbhwrite"] then
    match getRepr a with
    | some name => .ok { o with repr := some name }
    | none =>
      match a with
      | .item (.list _ args _) => args.foldlM addNested o
      | _ => .ok o
  else .ok o

/-- /repo/ssbh_write_derive/src/lib.rs:269-295 -/
def getWriteOptions (attrs : List Attribute) : Except Reject WriteOptions := attrs.foldlM addAttribute {}

/-! ## Types -/

/-- A field; the type of the field has an implementation of `SsbhWrite`. -/
structure FieldDef where
  attrs : List Attribute := []
  ty : Ty

/-- `syn::Fields` -/
inductive FieldsDef where
  | named (fs : List FieldDef)
  | unnamed (fs : List FieldDef)
  | unit

/-- `syn::Variant` -/
structure VariantDef where
  attrs : List Attribute := []
  fields : FieldsDef

/-- `syn::Data`. For an enum without data `memory` is its alignment in memory, which depends on `#[repr]`. -/
inductive DataDef where
  | struct (fs : FieldsDef)
  | enum (vs : List VariantDef) (memory : Nat := 1)
  | union

/-- `syn::DeriveInput` without names and generics. -/
structure Item where
  attrs : List Attribute := []
  data : DataDef

/-- The bytes of the types for `repr`. Casts of enums to other types do not compile. -/
def reprSize (name : String) : Except Reject Nat :=
  if name = "u8" ∨ name = "i8" then .ok 1
  else if name = "u16" ∨ name = "i16" then .ok 2
  else if name = "u32" ∨ name = "i32" then .ok 4
  else if name = "u64" ∨ name = "i64" then .ok 8
  else if name = "u128" ∨ name = "i128" then .ok 16
  else .error .code

def WriteOptions.opts (o : WriteOptions) : Opts := ⟨o.padAfter, o.alignAfter, o.alignment, o.magic⟩

/-- `write_named_fields`, `write_unnamed_fields`, `size_named_fields`, `size_unnamed_fields`:
/repo/ssbh_write_derive/src/lib.rs:422-526 -/
def deriveFields : List FieldDef → Except Reject Fields
  | [] => .ok .nil
  | f :: fs => do
    let o ← getWriteOptions f.attrs
    return .cons o.padAfter o.alignAfter f.ty (← deriveFields fs)

/-- Without fields the generated code has a sum of nothing, for example `size += ( );`, and does not compile. -/
def deriveSome (fs : List FieldDef) : Except Reject Fields :=
  match fs with
  | [] => .error .code
  | _ => deriveFields fs

/-- /repo/ssbh_write_derive/src/lib.rs:120-156,167-199 -/
def deriveVariants : List VariantDef → Except Reject Variants
  | [] => .ok .nil
  | v :: vs => do
    let o ← getWriteOptions v.attrs
    let fs ← match v.fields with
      | .unnamed fs => deriveSome fs
      | .named fs => deriveSome fs
      | .unit => .error .unitVariant
    return .cons o.padAfter o.alignAfter fs (← deriveVariants vs)

/-- An enum that can be cast to an integer. -/
def DataDef.castable : DataDef → Bool
  | .enum vs _ => vs.all fun v => match v.fields with | .unit => true | _ => false
  | _ => false

/-- /repo/ssbh_write_derive/src/lib.rs:68-114. If a type is rejected for more than one reason, the one reported can be
another. -/
def Item.derive (t : Item) : Except Reject Ty := do
  let o ← getWriteOptions t.attrs
  match o.repr with
  | some name =>
    if t.data.castable then
      return .repr o.opts (← reprSize name) (match t.data with | .enum _ m => m | _ => 1)
    else .error .code
  | none =>
    match t.data with
    | .struct (.named fs) => return .named o.opts (← deriveSome fs)
    | .struct (.unnamed fs) => return .tuple o.opts (← deriveSome fs)
    | .enum [] _ => .error .code
    | .enum vs _ => return .enum o.opts (← deriveVariants vs)
    | .struct .unit => .error .unsupported
    | .union => .error .unsupported

/-- An enum without data, with any number of variants. -/
theorem repr_derive {attrs : List Attribute} {o : WriteOptions} {name : String} {k n m : Nat}
    (h : getWriteOptions attrs = .ok o) (hr : o.repr = some name) (hs : reprSize name = .ok n) :
    (Item.mk attrs (.enum (List.replicate k ⟨[], .unit⟩) m)).derive = .ok (.repr o.opts n m) := by
  have : (DataDef.enum (List.replicate k ⟨[], .unit⟩) m).castable = true := by simp [DataDef.castable]
  simp only [Item.derive, h, bind, Except.bind, hr, this, if_true, hs, pure, Except.pure]

end Verif.Derive
