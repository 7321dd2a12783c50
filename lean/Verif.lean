import Verif.Model.Base
import Verif.Model.Replay
import Verif.Spec.ReplaySpec
import Verif.Lemmas.ReplayLemmas
import Verif.Props.Replay
import Verif.Props.PivNonce
import Verif.Model.Coap
import Verif.Lemmas.CoapLemmas
import Verif.Props.Coap
import Verif.Model.Context
import Verif.Model.Option
import Verif.Model.Unprotect
import Verif.Props.OscoreOption
import Verif.Props.OscoreSafe
import Verif.Spec.OscoreOptSpec
import Verif.Lemmas.Toy
import Verif.Lemmas.FrameLemmas
import Verif.Lemmas.Examples
import Verif.Lemmas.ProtectLemmas
import Verif.Lemmas.UnprotectLemmas
import Verif.Lemmas.SplitLemmas
import Verif.Props.Receive
import Verif.Props.Echo
import Verif.Lemmas.OuterLemmas
import Verif.Lemmas.ProtectOk
import Verif.Lemmas.SortLemmas
import Verif.Props.Send
import Verif.Props.Wire
import Verif.Props.Merge
import Verif.Lemmas.EndToEnd
import Verif.Props.EndToEnd
import Verif.Props.Interactions
import Verif.Props.Exchange
import Verif.Model.Device
import Verif.Props.Nvm
import Verif.Spec.CborSpec
import Verif.Spec.HkdfSpec
import Verif.Spec.OscoreCborSpec
import Verif.Lemmas.CborLemmas
import Verif.Props.Hkdf
import Verif.Props.OscoreKeys
import Verif.Model.EdhocBase
import Verif.Model.EdhocCbor
import Verif.Model.EdhocAuth
import Verif.Model.EdhocMsg
import Verif.Model.EdhocRun
import Verif.Lemmas.EdhocToy
import Verif.Spec.EdhocSpec
import Verif.Lemmas.EdhocCborLemmas
import Verif.Props.EdhocBasic
import Verif.Props.EdhocAuthn
import Verif.Props.EdhocCred
import Verif.Lemmas.EdhocTotal
import Verif.Lemmas.EdhocCodecLemmas
import Verif.Props.EdhocCodec
import Verif.Props.EdhocAbort
import Verif.Lemmas.EdhocHonest
import Verif.Props.EdhocHonest
import Verif.Lemmas.P256Prime
import Verif.Model.P256
import Verif.Lemmas.P256Limbs
import Verif.Lemmas.P256Mul
import Verif.Spec.P256Spec
import Verif.Lemmas.P256Field
import Verif.Props.P256
import Verif.Model.PsaP256
import Verif.Spec.P256Group
import Verif.Props.P256Dh
import Verif.Props.P256Static
import Verif.Model.KeyGen
import Verif.Props.KeyGen
import Verif.Model.Asn1
import Verif.Spec.DerSpec
import Verif.Lemmas.Asn1Lemmas
import Verif.Props.Cert
import Verif.Model.TinyP256
import Verif.Lemmas.TinyP256Lemmas
import Verif.Props.TinyP256
import Verif.Model.Sample
import Verif.Props.Composite
import Verif.Props.Conversation
import Verif.Props.EchoCache
import Verif.Props.MbedCert
import Verif.Props.EdhocTranscript
import Verif.Props.EdhocSchedule
import Verif.Props.EdhocWire
import Verif.Props.Delivered
import Verif.Props.Agreement
import Verif.Model.PsaStore
import Verif.Spec.CryptoSpec
import Verif.Lemmas.PsaLemmas
import Verif.Props.PsaStore
import Verif.Model.PsaThreads
import Verif.Spec.ThreadSpec
import Verif.Lemmas.ThreadLemmas
import Verif.Props.PsaThreads
import Verif.Model.Faults
import Verif.Props.Faults
import Verif.Model.EdhocFaults
import Verif.Props.EdhocFaults
import Verif.Spec.Rfc8613
import Verif.Lemmas.Rfc8613Lemmas
import Verif.Props.OscoreRfc
import Verif.Spec.EdhocSafeSpec
import Verif.Props.EdhocSafe
import Verif.Props.EdhocSafeWitness
import Verif.Spec.Fips
import Verif.Lemmas.FipsLemmas
import Verif.Props.RealCrypto
import Verif.Props.Vectors
import Verif.Spec.Curves
import Verif.Props.RealEdhoc
import Verif.Props.EdhocVectors
import Verif.Model.Zcbor
import Verif.Model.ZcborGen
import Verif.Lemmas.ZcborLemmas
import Verif.Lemmas.ZcborMsgs
import Verif.Lemmas.ZcborEnc
import Verif.Props.ZcborGen
import Verif.Model.EdhocOut
import Verif.Props.EdhocOut
import Verif.Model.PivThreads
import Verif.Props.Threads
import Verif.Lemmas.P256Jac
import Verif.Lemmas.P256OrderPrime
import Verif.Lemmas.P256Std
import Verif.Lemmas.Prime25519
import Verif.Lemmas.X25519Ladder
import Verif.Lemmas.Ed25519Group
import Verif.Lemmas.Ed25519Add
import Verif.Lemmas.Ed25519Std
import Verif.Props.RealRun
import Verif.Props.Exchanges
import Verif.Props.EdhocPeer
import Verif.Props.Lossy
import Verif.Model.CtxMem
import Verif.Props.Own
import Verif.Props.EdhocCallbacks
import Verif.Props.EdhocConfirm
import Verif.Props.EdhocInjective
import Verif.Props.Retry
import Verif.Props.ReplayAgain
import Verif.Props.Vla
import Verif.Props.Loops
import Verif.Props.EdhocErrMsg
import Verif.Props.Sizes
import Verif.Spec.Proxy
import Verif.Props.Proxy
import Verif.Props.EdhocIdentity
import Verif.Props.Several
import Verif.Props.EdhocBounded
import Verif.Props.Traffic
import Verif.Props.Builds
import Verif.Model.KeyUpdate
import Verif.Props.KeyUpdate
import Verif.Model.InPlace
import Verif.Props.InPlace
import Verif.Model.TinyWrap
import Verif.Props.TinyWrap
import Verif.Model.EdhocVla
import Verif.Props.EdhocVla
import Verif.Props.EdhocLib
import Verif.Props.Association
import Verif.Props.AssociationWitness
