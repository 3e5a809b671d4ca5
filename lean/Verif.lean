import Verif.Basic
import Verif.Cipher
import Verif.CipherProps
import Verif.Util
import Verif.UtilProps
import Verif.Names
import Verif.NamesLemmas
import Verif.NamesProps
import Verif.Hash
import Verif.HashProps
import Verif.Spec
import Verif.Symmetric
import Verif.SymmetricProps
import Verif.DH
import Verif.DHProps
import Verif.Curve25519
import Verif.Sign
import Verif.SignProps
import Verif.Patterns
import Verif.Handshake
import Verif.PatternsSpec
import Verif.PatternsProps
import Verif.HandshakeBase
import Verif.HandshakeSafe
import Verif.HandshakeProps
import Verif.HandshakeSpec
import Verif.HandshakeRefine
import Verif.HandshakeReal
import Verif.HandshakeAgree
import Verif.HandshakeStart
import Verif.HandshakeIdle
import Verif.HandshakeLive
import Verif.HandshakeFollow
import Verif.HandshakeConform
import Verif.HandshakeTwo
import Verif.HandshakeCalm
import Verif.HandshakeTrail
import Verif.HandshakeFallback
import Verif.HandshakeFallbackProps
import Verif.HandshakeNull
import Verif.HandshakeSize
import Verif.HandshakeTranscript
import Verif.Protobuf
import Verif.ProtobufUtf8
import Verif.ProtobufWrite
import Verif.ProtobufMeasure
import Verif.ProtobufRead
import Verif.ProtobufRoundtrip
import Verif.ProtobufFields
import Verif.ProtobufSafe
import Verif.ProtobufNest
import Verif.ProtobufArray
import Verif.Chunks
import Verif.ChaCha
import Verif.Rfc7539
import Verif.ChaChaProps
import Verif.Poly1305
import Verif.Poly1305Props
import Verif.ChaChaPoly
import Verif.ChaChaPolyProps
import Verif.Fips180
import Verif.BigEndian
import Verif.Sha256
import Verif.Sha512
import Verif.Sha256Props
import Verif.Sha512Props
import Verif.Rfc7693
import Verif.Blake2s
import Verif.Blake2b
import Verif.Blake2sProps
import Verif.Blake2bProps
import Verif.Sp80038D
import Verif.Ghash
import Verif.GhashProps
import Verif.GhashField
import Verif.AesGcm
import Verif.AesGcmProps
import Verif.Fips197
import Verif.AesTables
import Verif.Aes
import Verif.AesTableProps
import Verif.AesProps
import Verif.RandSpec
import Verif.Rand
import Verif.RandProps
import Verif.CertSpec
import Verif.Cert
import Verif.CertWrite
import Verif.CertRead
import Verif.CertProps
import Verif.CertSafe
import Verif.Loader
import Verif.LoaderSpec
import Verif.LoaderLemmas
import Verif.LoaderSave
import Verif.LoaderProps
import Verif.LoaderReal
import Verif.LoaderFile
import Verif.HandshakeJunk
import Verif.Pratt
import Verif.Rfc7748
import Verif.Curve25519Field
import Verif.Curve25519Props
import Verif.Montgomery
import Verif.Curve25519Group
import Verif.Curve25519Base
import Verif.HandshakeCurve25519
import Verif.HandshakeVector
import Verif.Rfc7748X448
import Verif.Curve448
import Verif.Curve448Field
import Verif.Curve448Mul
import Verif.Curve448Bytes
import Verif.Curve448Eval
import Verif.Curve448Props
import Verif.Pratt448
import Verif.LadderGroup
import Verif.Curve448Group
import Verif.Curve448Base
import Verif.HandshakeCurves
import Verif.Edwards
import Verif.Ed25519Tables
import Verif.Ed25519
import Verif.Ed25519Field
import Verif.Ed25519Point
import Verif.Ed25519Multiples
import Verif.Ed25519Base
import Verif.Ed25519Modm
import Verif.Rfc8032
import Verif.Ed25519Sign
import Verif.Ed25519Slide
import Verif.Ed25519Double
import Verif.Ed25519Decode
import Verif.Ed25519Verify
import Verif.Ed25519Vector
import Verif.Queries
import Verif.NewHopeTables
import Verif.NewHope
import Verif.NewHopeArith
import Verif.NewHopeLevel
import Verif.NewHopeNtt
import Verif.NewHopeRing
import Verif.NewHopeRec
import Verif.NewHopeCodec
import Verif.NewHopeProps
import Verif.NewHopeDH
import Verif.Keccak
import Verif.Fips202
import Verif.KeccakRound
import Verif.KeccakProps
import Verif.KeccakSponge
import Verif.NewHopeUniform
import Verif.NewHopeBatcher
import Verif.NewHopeUniformProps
import Verif.NewHopeReal
import Verif.NewHopeExample
import Verif.NewHopeUniformExample
import Verif.HandshakeNewHope
import Verif.DHKeys
import Verif.ProtobufVarint
import Verif.HandshakeDefects
import Verif.Poly1305WResult
import Verif.EchoProps
import Verif.EchoKeys
import Verif.EchoPackets
import Verif.EchoLoop
import Verif.EchoLoopBase
import Verif.EchoLoopProps
import Verif.EchoSession
import Verif.EchoHandshake
import Verif.EchoHandshakeBase
import Verif.EchoRun
import Verif.EchoRunSafe
import Verif.EchoClientSafe
import Verif.HandshakeNew
import Verif.HandshakeNewProps
