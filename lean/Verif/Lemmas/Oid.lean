import Verif.Model.Jks
import Verif.Model.Key6
import Verif.Model.KeyUtils
import Verif.Spec.Oid

/-! The identifiers in the code are the ones of the specification. -/

namespace Dstu

open Spec

theorem keyProtectorOID_eq : keyProtectorOID = oidKeyProtector := by decide +kernel
theorem pbes1OID_eq : pbes1OID = oidPbes1 := by decide +kernel
theorem iitStoreOID_eq : iitStoreOID = oidIitStore := by decide +kernel
theorem dstu4145CurveOID_eq : dstu4145CurveOID = oidCurveAttr := by decide +kernel
theorem dstu4145KeyOID_eq : dstu4145KeyOID = oidKeyAttr := by decide +kernel

end Dstu
