import Verif.Acc.MapModel
import Verif.Acc.MapProps
import Verif.Acc.Model
import Verif.Acc.OidModel
import Verif.Acc.OidProps
import Verif.Acc.P7Model
import Verif.Acc.P7Props
import Verif.Acc.Props
import Verif.Aead.Generic
import Verif.Aead.HashCrypt
import Verif.Aead.Model
import Verif.Aead.Props
import Verif.Aead.Spec
import Verif.Aead.SymMac
import Verif.Aead.Xof
import Verif.Aes.Bytes
import Verif.Aes.Lemmas
import Verif.Aes.Model
import Verif.Aes.Props
import Verif.Aes.Sched
import Verif.Aes.Spec
import Verif.Aes.Words
import Verif.Api.Model
import Verif.Api.Props
import Verif.Apps.CheckLineModel
import Verif.Apps.CheckLineProps
import Verif.Apps.CheckerModel
import Verif.Apps.CheckerProps
import Verif.Apps.HasherModel
import Verif.Apps.HasherProps
import Verif.AsconAead.KernelModel
import Verif.AsconAead.KernelProps
import Verif.AsconAead.Lemmas
import Verif.AsconAead.Model
import Verif.AsconAead.Props
import Verif.AsconAead.Spec
import Verif.AsconHash.Lemmas
import Verif.AsconHash.Model
import Verif.AsconHash.Props
import Verif.AsconHash.Spec
import Verif.Asn1.Check
import Verif.Asn1.DecTree
import Verif.Asn1.EncCheck
import Verif.Asn1.EncProps
import Verif.Asn1.EncSim
import Verif.Asn1.EncTree
import Verif.Asn1.Encode
import Verif.Asn1.Encoder
import Verif.Asn1.Ends
import Verif.Asn1.GenLog
import Verif.Asn1.Lemmas
import Verif.Asn1.Machines
import Verif.Asn1.Model
import Verif.Asn1.Nest
import Verif.Asn1.Props
import Verif.Asn1.Reach
import Verif.Asn1.Term
import Verif.Asn1.WinRun
import Verif.Asn1.Window
import Verif.Bike.Dec
import Verif.Bike.Gf2x
import Verif.Bike.Inv
import Verif.Bike.Kar
import Verif.Bike.Kem
import Verif.Bike.Keys
import Verif.Bike.Mod
import Verif.Bike.Poly
import Verif.Bike.Props
import Verif.Bike.Refine
import Verif.Bike.Ring
import Verif.Bike.Run
import Verif.Bike.Sample
import Verif.Bike.Spec
import Verif.Bike.Upc
import Verif.Cpu.Model
import Verif.Cpu.Props
import Verif.Curve.Card
import Verif.Curve.Dh
import Verif.Curve.Eddsa
import Verif.Curve.EddsaLemmas
import Verif.Curve.EddsaProps
import Verif.Curve.EddsaWit
import Verif.Curve.Edwards
import Verif.Curve.Encode
import Verif.Curve.Field
import Verif.Curve.Ge
import Verif.Curve.GeBase
import Verif.Curve.GeCode
import Verif.Curve.GeLemmas
import Verif.Curve.GeMul
import Verif.Curve.GeSlide
import Verif.Curve.GeSmall
import Verif.Curve.GeTable
import Verif.Curve.GeTypes
import Verif.Curve.GeX
import Verif.Curve.GeXProps
import Verif.Curve.Group
import Verif.Curve.Ladder
import Verif.Curve.Model
import Verif.Curve.Mont
import Verif.Curve.Orders
import Verif.Curve.Prime
import Verif.Curve.Props
import Verif.Curve.Scalar
import Verif.Curve.ScalarIO
import Verif.Curve.ScalarLemmas
import Verif.Curve.ScalarProps
import Verif.Curve.Spec
import Verif.Dilithium.Attempts
import Verif.Dilithium.Correct
import Verif.Dilithium.Ctx
import Verif.Dilithium.Hint
import Verif.Dilithium.Model
import Verif.Dilithium.Ntt
import Verif.Dilithium.NttLemmas
import Verif.Dilithium.Pack
import Verif.Dilithium.PackLemmas
import Verif.Dilithium.Reduce
import Verif.Dilithium.Rounding
import Verif.Dilithium.Sample
import Verif.Dilithium.Scheme
import Verif.Dilithium.SchemeLemmas
import Verif.Dilithium.Witness
import Verif.DomSep.Model
import Verif.DomSep.Props
import Verif.Drbg.Cc20Model
import Verif.Drbg.Cc20Props
import Verif.Drbg.Cc20Spec
import Verif.Drbg.FkeModel
import Verif.Drbg.FkeProps
import Verif.Drbg.FkeSpec
import Verif.Drbg.HashLemmas
import Verif.Drbg.HashModel
import Verif.Drbg.HashProps
import Verif.Drbg.HashSpec
import Verif.Drbg.HmacModel
import Verif.Drbg.HmacProps
import Verif.Drbg.HmacSpec
import Verif.Drbg.XdrbgModel
import Verif.Drbg.XdrbgProps
import Verif.Drbg.XdrbgSpec
import Verif.Hash.Inst
import Verif.Hash.Stream
import Verif.Hex.Model
import Verif.Hex.Props
import Verif.Hmac.Lemmas
import Verif.Hmac.Model
import Verif.Hmac.Props
import Verif.Hmac.Spec
import Verif.Hybrid.Composite
import Verif.Hybrid.CompositeProps
import Verif.Hybrid.Model
import Verif.Hybrid.Props
import Verif.Kdf.Lemmas
import Verif.Kdf.Model
import Verif.Kdf.Props
import Verif.Kdf.Spec
import Verif.Kernel.AllocModel
import Verif.Kernel.AllocProps
import Verif.Kernel.BikeModel
import Verif.Kernel.BikeProps
import Verif.Kernel.HashModel
import Verif.Kernel.HashProps
import Verif.Kernel.HybridModel
import Verif.Kernel.HybridProps
import Verif.Kernel.KyberModel
import Verif.Kernel.KyberProps
import Verif.Kernel.LoadModel
import Verif.Kernel.LoadProps
import Verif.Kernel.SigEdModel
import Verif.Kernel.SigEdProps
import Verif.Kernel.SigModel
import Verif.Kernel.SigProps
import Verif.Kmac.Lemmas
import Verif.Kmac.Model
import Verif.Kmac.Props
import Verif.Kmac.Spec
import Verif.Kyber.Compress
import Verif.Kyber.Correct
import Verif.Kyber.Inst
import Verif.Kyber.Kem
import Verif.Kyber.KemProps
import Verif.Kyber.Model
import Verif.Kyber.Ntt
import Verif.Kyber.NttLemmas
import Verif.Kyber.Pack
import Verif.Kyber.Proto
import Verif.Kyber.ProtoProps
import Verif.Kyber.Reduce
import Verif.Kyber.Sample
import Verif.Kyber.SchemeLemmas
import Verif.Mem.GenericModel
import Verif.Mem.GenericProps
import Verif.Mem.Model
import Verif.Mem.Props
import Verif.Memcmp.Model
import Verif.Memcmp.Props
import Verif.Ntt.Exist
import Verif.Ntt.Layer
import Verif.Ntt.Poly
import Verif.Oid.Data
import Verif.Oid.Props
import Verif.Otp.Model
import Verif.Otp.Props
import Verif.P7.AA
import Verif.P7.Model
import Verif.P7.Out
import Verif.P7.Parse
import Verif.P7.ParseProps
import Verif.P7.Props
import Verif.P7.Read
import Verif.P7.ReadWalk
import Verif.P7.Signed
import Verif.P7.Walk
import Verif.Pkcs7.Model
import Verif.Pkcs7.Props
import Verif.Pkcs7.Store
import Verif.Seeded.EntropyModel
import Verif.Seeded.EntropyProps
import Verif.Seeded.Model
import Verif.Seeded.Props
import Verif.SelfTest.Model
import Verif.SelfTest.Props
import Verif.Sha2.Lemmas
import Verif.Sha2.Model
import Verif.Sha2.Props
import Verif.Sha2.Spec
import Verif.Slh.Binding
import Verif.Slh.Correct
import Verif.Slh.Fors
import Verif.Slh.Inst
import Verif.Slh.Model
import Verif.Slh.Tree
import Verif.Slh.Wots
import Verif.Sponge.Keccak
import Verif.Sponge.KeccakLemmas
import Verif.Sponge.Lemmas
import Verif.Sponge.Model
import Verif.Sponge.Props
import Verif.Sponge.Spec
import Verif.Sym.Cbc
import Verif.Sym.Chacha
import Verif.Sym.Ctr
import Verif.Sym.Kw
import Verif.Sym.Model
import Verif.Sym.Props
import Verif.Sym.Spec
import Verif.X509.CertExtEnc
import Verif.X509.CertExtRead
import Verif.X509.CertExts
import Verif.X509.CertModel
import Verif.X509.CertOut
import Verif.X509.CertParts
import Verif.X509.CertProps
import Verif.X509.CertRead
import Verif.X509.CertReadWalk
import Verif.X509.CertSub
import Verif.X509.CertTime
import Verif.X509.CertTree
import Verif.X509.CertWalk
import Verif.X509.Model
import Verif.X509.Props
import Verif.X509.SignedProps
import Verif.X509.SignedRun
import Verif.X509.TimeModel
import Verif.X509.TimeProps
