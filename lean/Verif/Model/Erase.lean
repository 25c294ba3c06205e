import Verif.Model.Key6
import Verif.Model.Key
import Verif.Model.Rbg

/-! What some functions leave behind in memory that is no longer in use. -/

namespace Dstu

/-- keylib/key6.c:44-46, 53-65: the automatic variables `key` and `ctx` when `decryptKey6` returns; nothing is written to them after line 56. -/
def key6Frame (g : Garbage) (password : List Byte) : Option (Bytes 32 × GostCtx) := do
  let ctx := gost_init g.ctx (some (unpack_sbox default_sbox))
  let key ← pkdf g.hashCtx password
  let ctx := gost_key ctx g.mask key
  return (key, ctx)

/-- engine/ameth.c:233-270: the contents of `bn_bytes` when `dstu_asn1_priv_decode` gives it to `OPENSSL_free`, which does not overwrite it.  `none`: the
function returns earlier. -/
noncomputable def privDecodeBuffer (env : Env) (p8 : Pkcs8) : Option (List Byte) :=
  match p8.alg with
  | none => none
  | some t =>
    match p8.params with
    | none => none
    | some params =>
      match dstu_asn1_param_decode env ⟨t, none⟩ params with
      | (false, _) => none
      | (true, _) => if p8.prk.length = 0 then none else reverse_bytes_copy p8.prk p8.prk.length

/-- engine/rbg.c:56-76: the automatic variable `seed` when `dstu_rbg_init` returns.  `garbage`: what it holds when `RAND_OpenSSL()->bytes` fails. -/
def rbgInitFrame (garbage : Bytes 40) (e : RandEnv) : Bytes 40 :=
  match e.seed with
  | none => garbage
  | some _ => Vector.replicate 40 0

end Dstu
