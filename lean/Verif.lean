import Verif.Lemmas.Asn1
import Verif.Lemmas.Ber
import Verif.Lemmas.BerExt
import Verif.Lemmas.Binding
import Verif.Lemmas.Bytes
import Verif.Lemmas.Cipher
import Verif.Lemmas.CipherApi
import Verif.Lemmas.CipherMem
import Verif.Lemmas.Compress
import Verif.Lemmas.Curve
import Verif.Lemmas.CurveData
import Verif.Lemmas.CurveData2
import Verif.Lemmas.CurveTable
import Verif.Lemmas.Der
import Verif.Lemmas.Dke1
import Verif.Lemmas.Draws
import Verif.Lemmas.Ecpp
import Verif.Lemmas.Engine
import Verif.Lemmas.EngineThreads
import Verif.Lemmas.Err
import Verif.Lemmas.ErrThreads
import Verif.Lemmas.FailEngine
import Verif.Lemmas.FailKeylib
import Verif.Lemmas.FailLib
import Verif.Lemmas.GF2
import Verif.Lemmas.Gost89
import Verif.Lemmas.Halving
import Verif.Lemmas.Hash
import Verif.Lemmas.HashCollision
import Verif.Lemmas.HashStream
import Verif.Lemmas.HexSbox
import Verif.Lemmas.Hmac
import Verif.Lemmas.Irred
import Verif.Lemmas.Jks
import Verif.Lemmas.JksAccept
import Verif.Lemmas.JksImport
import Verif.Lemmas.JksLayout
import Verif.Lemmas.JksStuck
import Verif.Lemmas.Key
import Verif.Lemmas.Key6
import Verif.Lemmas.KeyBer
import Verif.Lemmas.KeyHeap
import Verif.Lemmas.KeyStore
import Verif.Lemmas.KeyUtils
import Verif.Lemmas.Mac
import Verif.Lemmas.MacForge
import Verif.Lemmas.Md
import Verif.Lemmas.Oid
import Verif.Lemmas.OrderPrime
import Verif.Lemmas.Pbkdf2
import Verif.Lemmas.Pkcs12
import Verif.Lemmas.Rbg
import Verif.Lemmas.RbgReturns
import Verif.Lemmas.RbgThreads
import Verif.Lemmas.Res
import Verif.Lemmas.Runs
import Verif.Lemmas.Sign
import Verif.Lemmas.Spread
import Verif.Lemmas.Steps
import Verif.Lemmas.StepsAttack
import Verif.Lemmas.Template
import Verif.Lemmas.TemplateBer
import Verif.Lemmas.TemplateSound
import Verif.Lemmas.Torsion
import Verif.Lemmas.Trace
import Verif.Lemmas.Utf16
import Verif.Lemmas.Vector
import Verif.Model.Asn1
import Verif.Model.Asn1Keylib
import Verif.Model.Basic
import Verif.Model.Ber
import Verif.Model.Bn
import Verif.Model.Cipher
import Verif.Model.CipherEvp
import Verif.Model.CipherMem
import Verif.Model.Compress
import Verif.Model.Curves
import Verif.Model.Draws
import Verif.Model.Ec
import Verif.Model.Engine
import Verif.Model.EngineThreads
import Verif.Model.Envelope
import Verif.Model.Erase
import Verif.Model.Err
import Verif.Model.ErrThreads
import Verif.Model.ExportFaults
import Verif.Model.FailEngine
import Verif.Model.FailKeylib
import Verif.Model.FailLib
import Verif.Model.Gost89
import Verif.Model.Hash
import Verif.Model.HashLib
import Verif.Model.Hmac
import Verif.Model.ImportFaults
import Verif.Model.Jks
import Verif.Model.Key
import Verif.Model.Key6
import Verif.Model.KeyCmp
import Verif.Model.KeyDer
import Verif.Model.KeyFaults
import Verif.Model.KeyFile
import Verif.Model.KeyHeap
import Verif.Model.KeyRun
import Verif.Model.KeyStore
import Verif.Model.KeyUtils
import Verif.Model.Lengths
import Verif.Model.Md
import Verif.Model.MdKey
import Verif.Model.Message
import Verif.Model.ParamSets
import Verif.Model.PassFaults
import Verif.Model.Pkcs12
import Verif.Model.Portable
import Verif.Model.Print
import Verif.Model.Rbg
import Verif.Model.RbgPool
import Verif.Model.RbgThreads
import Verif.Model.ReadFaults
import Verif.Model.Res
import Verif.Model.Sbox
import Verif.Model.Sign
import Verif.Model.SignAny
import Verif.Model.SignFaults
import Verif.Model.Steps
import Verif.Model.StoreFaults
import Verif.Model.Utf16
import Verif.Props.Asn1
import Verif.Props.Asn1Accept
import Verif.Props.Asn1Keylib
import Verif.Props.Backtrack
import Verif.Props.Ber
import Verif.Props.Binding
import Verif.Props.BlockCipher
import Verif.Props.Builtin
import Verif.Props.Bytes
import Verif.Props.Cipher
import Verif.Props.CipherSessions
import Verif.Props.CipherStale
import Verif.Props.Compress
import Verif.Props.CurveDesc
import Verif.Props.Curves
import Verif.Props.Defaults
import Verif.Props.Draws
import Verif.Props.Engine
import Verif.Props.EngineThreads
import Verif.Props.Envelope
import Verif.Props.Erase
import Verif.Props.Err
import Verif.Props.ErrThreads
import Verif.Props.Expand
import Verif.Props.ExportFaults
import Verif.Props.FailEngine
import Verif.Props.FailKeylib
import Verif.Props.FailLib
import Verif.Props.FailSingle
import Verif.Props.Hash
import Verif.Props.HashCollision
import Verif.Props.Hmac
import Verif.Props.ImportFaults
import Verif.Props.Jks
import Verif.Props.JksAccept
import Verif.Props.JksStuck
import Verif.Props.Key
import Verif.Props.Key6
import Verif.Props.KeyCmp
import Verif.Props.KeyCtx
import Verif.Props.KeyDer
import Verif.Props.KeyFaults
import Verif.Props.KeyFile
import Verif.Props.KeyPair
import Verif.Props.KeySpace
import Verif.Props.KeyStore
import Verif.Props.KeyUtils
import Verif.Props.Lengths
import Verif.Props.Life
import Verif.Props.LifeDraws
import Verif.Props.LongSig
import Verif.Props.Mac
import Verif.Props.MacForge
import Verif.Props.MdKey
import Verif.Props.Mesh
import Verif.Props.Message
import Verif.Props.MessageBinding
import Verif.Props.Nonce
import Verif.Props.Orders
import Verif.Props.ParamSets
import Verif.Props.PassFaults
import Verif.Props.PasswordKeys
import Verif.Props.Period
import Verif.Props.Pkcs12
import Verif.Props.Portable
import Verif.Props.Print
import Verif.Props.PrivRange
import Verif.Props.Rbg
import Verif.Props.RbgPool
import Verif.Props.RbgReturns
import Verif.Props.RbgThreads
import Verif.Props.ReadFaults
import Verif.Props.RelatedKeys
import Verif.Props.Reuse
import Verif.Props.ReuseThreads
import Verif.Props.Sign
import Verif.Props.SignAny
import Verif.Props.SignFaults
import Verif.Props.Sizes
import Verif.Props.Steps
import Verif.Props.StoreFaults
import Verif.Props.Subgroup
import Verif.Props.Tamper
import Verif.Props.Tiny
import Verif.Props.Utf16
import Verif.Props.Vectors
import Verif.Props.VectorsHash
import Verif.Props.Witness
import Verif.Spec.Abs
import Verif.Spec.Asn1
import Verif.Spec.Asn1Ber
import Verif.Spec.Asn1Keylib
import Verif.Spec.Ber
import Verif.Spec.Blocks
import Verif.Spec.Bytes
import Verif.Spec.Cfb
import Verif.Spec.CipherSessions
import Verif.Spec.Curve
import Verif.Spec.CurveDesc
import Verif.Spec.Digest
import Verif.Spec.Dke1
import Verif.Spec.Draws
import Verif.Spec.Dstu4145
import Verif.Spec.Engine
import Verif.Spec.Err
import Verif.Spec.FailKeylib
import Verif.Spec.FailLib
import Verif.Spec.Feed
import Verif.Spec.GF2
import Verif.Spec.Gost28147
import Verif.Spec.Hash
import Verif.Spec.HashCollision
import Verif.Spec.Hmac
import Verif.Spec.Jks
import Verif.Spec.JksAccept
import Verif.Spec.JksStuck
import Verif.Spec.Key6
import Verif.Spec.KeyCtx
import Verif.Spec.KeyDer
import Verif.Spec.KeyFile
import Verif.Spec.KeySpace
import Verif.Spec.KeyStore
import Verif.Spec.KeyUtils
import Verif.Spec.Mac
import Verif.Spec.MdKey
import Verif.Spec.Mesh
import Verif.Spec.Oid
import Verif.Spec.ParamSets
import Verif.Spec.Pkcs12
import Verif.Spec.PointForm
import Verif.Spec.Print
import Verif.Spec.Rbg
import Verif.Spec.ReadFaults
import Verif.Spec.Res
import Verif.Spec.Steps
import Verif.Spec.Trace
import Verif.Spec.Utf16
