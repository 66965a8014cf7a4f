import Verif.Json.Formats

/-!
The functions derived for enums with the feature `strum`: `FromRepr, Display, EnumIter, EnumString`,
/repo/ssbh_lib/src/formats/matl.rs:143,520,532,566,579,591,603,635,661,683, anim.rs:264, skel.rs:93, nrpd.rs:69. The
derive macros of the crate `strum` (0.24) are modelled for enums without data and without attributes of `strum`.
-/

namespace Verif

/-- An enum without data: the names and the numbers of its variants. -/
structure NamedEnum (tags : List Nat) where
  names : List String

namespace NamedEnum

/-- `Display`: the name of the variant. -/
def display (E : NamedEnum tags) (v : ReprEnum tags) : String := ((tags.zip E.names).lookup v.tag).getD ""

/-- `EnumString`: `from_str`, with `none` for the error `VariantNotFound`. -/
def fromStr (E : NamedEnum tags) (s : String) : Option (ReprEnum tags) :=
  ((E.names.zip tags).lookup s).bind (ReprEnum.ofNat tags)

/-- `FromRepr`: `from_repr`. The argument is a `usize` as none of the enums has a `repr` attribute. -/
def fromRepr (_ : NamedEnum tags) (n : UInt64) : Option (ReprEnum tags) := ReprEnum.ofNat tags n.toNat

/-- `EnumIter`: `iter`. The order is not that of the declaration. -/
def iter (_ : NamedEnum tags) : List (ReprEnum tags) := tags.attach.map fun t => ⟨t.1, t.2⟩

end NamedEnum

/-- /repo/ssbh_lib/src/formats/matl.rs:147-516 -/
def Matl.ParamId.strum : NamedEnum (List.range 366) := ⟨Matl.ParamId.names⟩

/-- /repo/ssbh_lib/src/formats/matl.rs:525-528 -/
def Matl.FillMode.strum : NamedEnum [0, 1] := ⟨Matl.FillMode.names⟩

/-- /repo/ssbh_lib/src/formats/matl.rs:537-541 -/
def Matl.CullMode.strum : NamedEnum [0, 1, 2] := ⟨Matl.CullMode.names⟩

/-- /repo/ssbh_lib/src/formats/matl.rs:571-576 -/
def Matl.WrapMode.strum : NamedEnum [0, 1, 2, 3] := ⟨Matl.WrapMode.names⟩

/-- /repo/ssbh_lib/src/formats/matl.rs:584-588 -/
def Matl.MinFilter.strum : NamedEnum [0, 1, 2] := ⟨Matl.MinFilter.names⟩

/-- /repo/ssbh_lib/src/formats/matl.rs:596-600 -/
def Matl.MagFilter.strum : NamedEnum [0, 1, 2] := ⟨Matl.MagFilter.names⟩

/-- /repo/ssbh_lib/src/formats/matl.rs:608-612 -/
def Matl.FilteringType.strum : NamedEnum [0, 1, 2] := ⟨Matl.FilteringType.names⟩

/-- /repo/ssbh_lib/src/formats/matl.rs:640-646 -/
def Matl.MaxAnisotropy.strum : NamedEnum [1, 2, 4, 8, 16] := ⟨Matl.MaxAnisotropy.names⟩

/-- /repo/ssbh_lib/src/formats/matl.rs:666-679 -/
def Matl.BlendFactor.strum : NamedEnum [0, 1, 2, 3, 4, 5, 6, 7, 8, 9, 10] := ⟨Matl.BlendFactor.names⟩

/-- /repo/ssbh_lib/src/formats/matl.rs:688-694 -/
def Matl.BlendOperation.strum : NamedEnum [0, 1, 2, 3, 4] := ⟨Matl.BlendOperation.names⟩

/-- /repo/ssbh_lib/src/formats/anim.rs:268-273 -/
def Anim.GroupType.strum : NamedEnum [1, 2, 4, 5] := ⟨Anim.GroupType.names⟩

/-- /repo/ssbh_lib/src/formats/skel.rs:97-112 -/
def Skel.BillboardType.strum : NamedEnum [0, 1, 2, 3, 4, 6, 8] := ⟨Skel.BillboardType.names⟩

/-- /repo/ssbh_lib/src/formats/nrpd.rs:74-87 -/
def Nrpd.UnkFormat.strum : NamedEnum [256, 308, 324, 528, 532, 582, 801, 836, 1024, 1025, 1029, 1088] := ⟨Nrpd.UnkFormat.names⟩

end Verif
