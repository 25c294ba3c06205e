import Verif.Model.Pkcs12
import Verif.Spec.KeyStore

/-! What a PKCS#12 file contains. -/

namespace Dstu.Spec

/-- A key or certificate in a file; `none`: it cannot be read. -/
inductive Item (κ χ : Type) where
  | key (k : Option κ)
  | cert (c : Option χ)

/-- The item can be read. -/
def Item.readable {κ χ : Type} : Item κ χ → Bool
  | .key k => k.isSome
  | .cert c => c.isSome

mutual
/-- The items of a bag, in the order in which they are written. -/
def itemsOfBag {D κ χ : Type} (lib : P12Lib D κ χ) (pass : List Byte) : Bag → List (Item κ χ)
  | .keyBag p8 => [.key (lib.EVP_PKCS82PKEY p8)]
  | .shrouded enc => [.key ((lib.decrypt_skey enc pass).bind lib.EVP_PKCS82PKEY)]
  | .certBag cert => [.cert (lib.get1_cert cert)]
  | .safes bags => itemsOfBags lib pass bags
  | .other => []

/-- The items of a list of bags. -/
def itemsOfBags {D κ χ : Type} (lib : P12Lib D κ χ) (pass : List Byte) : List Bag → List (Item κ χ)
  | [] => []
  | b :: bags => itemsOfBag lib pass b ++ itemsOfBags lib pass bags
end

/-- The bags of a safe: none for absent safes and other types; `none` if it cannot be opened. -/
def safeBags {D κ χ : Type} (lib : P12Lib D κ χ) (pass : List Byte) : Option P7 → Option (List Bag)
  | some ⟨.data, content⟩ => lib.unpack_p7data content
  | some ⟨.encrypted, content⟩ => lib.unpack_p7encdata content pass
  | _ => some []

/-- The items of all safes. -/
def itemsOfSafes {D κ χ : Type} (lib : P12Lib D κ χ) (pass : List Byte) (safes : List (Option P7)) : List (Item κ χ) :=
  safes.flatMap fun p7 => itemsOfBags lib pass ((safeBags lib pass p7).getD [])

/-- The contents of a PKCS#12 file for a password, if it is a file with a valid MAC, all of whose parts can be opened and
read, and which contains something. -/
def contents {D κ χ : Type} (lib : P12Lib D κ χ) (data pass : List Byte) (items : List (Item κ χ)) : Prop :=
  ∃ p12 safes, lib.d2i_PKCS12 data = some p12 ∧ lib.verify_mac p12 pass = true ∧ lib.unpack_authsafes p12 = some safes ∧
    (∀ p7 ∈ safes, (safeBags lib pass p7).isSome) ∧ items = itemsOfSafes lib pass safes ∧
    (∀ i ∈ items, i.readable = true) ∧ items ≠ []

/-- The keys among the items. -/
def keysOf {κ χ : Type} (items : List (Item κ χ)) : List κ := items.filterMap fun i => match i with | .key k => k | .cert _ => none

/-- The certificates among the items. -/
def certsOf {κ χ : Type} (items : List (Item κ χ)) : List χ := items.filterMap fun i => match i with | .key _ => none | .cert c => c

/-- A memory that careful use of the key store functions can produce. -/
def Reachable (m : KsMem) : Prop := ∃ ops, AllAlong Tidy .boot ops ∧ KsMem.boot.run ops = some m

/-- Store `id` holds exactly these keys and certificates, in this order. -/
def HoldsExactly {κ χ : Type} (m : ImpMem κ χ) (id : Nat) (keys : List κ) (certs : List χ) : Prop :=
  KeyStoreNum .keys id m.ks = some keys.length ∧ KeyStoreNum .certs id m.ks = some certs.length ∧
  (∀ pos k, keys[pos]? = some k → ∃ a, KeyStoreGet .keys id pos m.ks = some (.ptr a) ∧ m.ks.objs a = some .keys ∧ m.key a = some k) ∧
  (∀ pos c, certs[pos]? = some c → ∃ a, KeyStoreGet .certs id pos m.ks = some (.ptr a) ∧ m.ks.objs a = some .certs ∧ m.cert a = some c)

/-- Nothing that existed is changed: stores, objects and their values. -/
def Undisturbed {κ χ : Type} (m m' : ImpMem κ χ) : Prop :=
  (∀ id, m.ks.stores id ≠ none → m'.ks.stores id = m.ks.stores id) ∧
  (∀ a, m.ks.objs a ≠ none → m'.ks.objs a = m.ks.objs a ∧ m'.key a = m.key a ∧ m'.cert a = m.cert a)

/-- Nothing was added. -/
def NothingLeft {κ χ : Type} (m m' : ImpMem κ χ) : Prop :=
  (∀ id, m.ks.stores id = none → m'.ks.stores id = none) ∧ ∀ a, m.ks.objs a = none → m'.ks.objs a = none

end Dstu.Spec
