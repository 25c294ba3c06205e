import Verif.Model.Asn1
import Verif.Model.Key6
import Verif.Model.KeyUtils

/-! The ASN.1 templates of /repo/keylib/iit_asn1.c and /repo/keylib/attrcurvespec_asn1.c, with the stand-in for OpenSSL's interpreter in `Verif.Model.Asn1`. -/

namespace Dstu

/-- /repo/keylib/iit_asn1.c:5-9 `IITParams`. -/
def itIITParams : Item := .seq (.cons false (.prim .octets) (.cons true (.prim .octets) .nil))

/-- /repo/keylib/iit_asn1.c:11-15 `IITHeader`. -/
def itIITHeader : Item := .seq (simple [.prim .object, itIITParams])

/-- /repo/keylib/iit_asn1.c:17-21 `IITStore`. -/
def itIITStore : Item := .seq (simple [itIITHeader, .prim .octets])

/-- /repo/keylib/attrcurvespec_asn1.c:5-10 `DSTU_AttrCurveSpec`. -/
def itAttrCurveSpec : Item := .seq (simple [itCustomCurveSpec, .prim .octets, .prim .octets])

/-- The structures of /repo/keylib/iit_asn1.h:6-22; the decoder leaves no null pointer but `pad`. -/
def IITStore.ofVal : itIITStore.Val → IITStore
  | ((type, (mac, pad, ()), ()), data, ()) => ⟨some ⟨some type, some ⟨mac, pad⟩⟩, some data⟩

/-- `i2d_IITStore`, /repo/keylib/iit_asn1.c:23, for a structure without null pointers. -/
def i2d_IITStore (type mac : List Byte) (pad : Option (List Byte)) (data : List Byte) : List Byte :=
  itIITStore.i2d ((type, (mac, pad, ()), ()), data, ())

/-- `d2i_IITStore`, /repo/keylib/iit_asn1.c:23, called at /repo/keylib/key6.c:73. -/
def d2i_IITStore (l : List Byte) : Option IITStore :=
  match itIITStore.d2i false l with
  | .ok v _ => some (.ofVal v)
  | _ => none

/-- `i2d_DSTU_AttrCurveSpec`, /repo/keylib/attrcurvespec_asn1.c:12. -/
def i2d_AttrCurveSpec (s : CustomCurveSpec) (dke dke1 : List Byte) : List Byte := itAttrCurveSpec.i2d (s.val, dke, dke1, ())

/-- `ASN1_TYPE_unpack_sequence` with the template, /repo/keylib/utils.c:160: OpenSSL decodes the bytes of the sequence; the `spec` of the structure, which is all that is used. -/
def unpack_AttrCurveSpec (der : List Byte) : Option CustomCurveSpec :=
  match itAttrCurveSpec.d2i false der with
  | .ok (s, _, _, ()) _ => some (.ofVal s)
  | _ => none

end Dstu
