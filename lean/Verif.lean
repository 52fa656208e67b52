import Verif.Model.Basic
import Verif.Model.ParseBuffer
import Verif.Model.CryptoBuffer
import Verif.Model.Codec
import Verif.Model.Extensions
import Verif.Model.Suite
import Verif.Model.KeySchedule
import Verif.Model.Handshake
import Verif.Model.Record
import Verif.Model.RecordReader
import Verif.Model.Conn
import Verif.Proofs.Parse
import Verif.Proofs.Encode
import Verif.Spec.CodePoints
import Verif.Props.CodePoints
import Verif.Props.Buffers
import Verif.Spec.ServerMessages
import Verif.Proofs.Reads
import Verif.Props.Messages
import Verif.Spec.KeySchedule
import Verif.Proofs.Toy
import Verif.Props.KeySchedule
import Verif.Spec.Record
import Verif.Proofs.Write
import Verif.Proofs.WritePath
import Verif.Props.WritePath
import Verif.Spec.ClientMessages
import Verif.Proofs.ChDecode
import Verif.Proofs.ClientMsg
import Verif.Proofs.WriteRecord
import Verif.Proofs.ConnWrite
import Verif.Props.ClientMessages
import Verif.Props.Close
import Verif.Model.ReadBuffer
import Verif.Spec.Stream
import Verif.Proofs.Transport
import Verif.Proofs.ReadPath
import Verif.Props.ReadPath
import Verif.Model.Unpad
import Verif.Props.BufferWindow
import Verif.Props.ReadSafety
import Verif.Props.Split
import Verif.Props.Concurrent
import Verif.Proofs.Honest
import Verif.Props.Honest
import Verif.Proofs.Handshake
import Verif.Proofs.HandshakeRun
import Verif.Proofs.HandshakeOpen
import Verif.Proofs.Sound
import Verif.Spec.Handshake
import Verif.Proofs.Session
import Verif.Proofs.ExServer
import Verif.Proofs.HandshakeFwd
import Verif.Proofs.HandshakeComplete
import Verif.Spec.Server
import Verif.Proofs.ServerFlight
import Verif.Props.HonestServer
import Verif.Props.Handshake
import Verif.Proofs.ProcessRel
import Verif.Props.Termination
import Verif.Proofs.HandshakeInv
import Verif.Proofs.HandshakeFail
import Verif.Proofs.Errors
import Verif.Props.HandshakeFail
import Verif.Props.AfterOpen
import Verif.Props.WholeLife
import Verif.Model.Hostname
import Verif.Spec.Hostname
import Verif.Props.Hostname
import Verif.Model.Pki
import Verif.Model.Webpki
import Verif.Model.Clock
import Verif.Proofs.VerifierSim
import Verif.Spec.Pki
import Verif.Props.Pki
import Verif.Model.ConfigBuilder
import Verif.Props.Config
import Verif.Props.NativeAuth
import Verif.Props.PkiComplete
import Verif.Props.Nameless
import Verif.Props.Chunking
import Verif.Props.OpenPanics
import Verif.Props.Reopen
import Verif.Props.HonestAuth
import Verif.Props.Provider
import Verif.Props.Accept
import Verif.Props.Readable
import Verif.Props.RoundTrip
import Verif.Spec.Readable
import Verif.Spec.Reader
import Verif.Props.Reader
import Verif.Spec.Open
import Verif.Props.Opens
import Verif.Props.OpenReply
import Verif.Props.OpenStream
import Verif.Props.Grammar
import Verif.Props.OpenUnique
import Verif.Spec.Writer
import Verif.Props.Writer
import Verif.Props.Duplex
import Verif.Model.Der
import Verif.Spec.X509
import Verif.Props.Der
import Verif.Props.X509
import Verif.Spec.Transport
import Verif.Proofs.IoErrors
import Verif.Props.Transport
import Verif.Spec.Negotiation
import Verif.Props.Negotiation
import Verif.Spec.Sha2
import Verif.Spec.Gcm
import Verif.Spec.P256
import Verif.Model.Suites
import Verif.Model.Libs
import Verif.Props.Suites
import Verif.Props.OpenSsl
import Verif.Props.Secrecy
import Verif.Proofs.Primes
import Verif.Proofs.Curve
import Verif.Proofs.P256
import Verif.Proofs.EcdsaDer
import Verif.Proofs.EcdsaOnly
import Verif.Proofs.Utf8
import Verif.Props.Agreement
import Verif.Spec.Complaint
import Verif.Props.Complaint
import Verif.Proofs.Order
import Verif.Proofs.Sec1
import Verif.Props.KeyShare
import Verif.Model.Rng
import Verif.Props.Rng
import Verif.Model.ErrorKind
import Verif.Props.ErrorKind
import Verif.Spec.Clash
import Verif.Proofs.Clash
import Verif.Props.SameHandshake
import Verif.Model.Future
import Verif.Proofs.Future
import Verif.Props.Cancel
import Verif.Proofs.CloseErrors
import Verif.Props.Truncation
import Verif.Props.Limits
import Verif.Props.ChangeCipherSpec
import Verif.Props.FatalErrors
import Verif.Props.Strictness
import Verif.Props.PlainFlight
import Verif.Props.KeyOwner
import Verif.Props.SignedOnly
import Verif.Props.Forgery
import Verif.Props.OwnerData
import Verif.Props.OwnerHears
import Verif.Props.PskHolder
import Verif.Proofs.SignRun
import Verif.Props.SignOnce
import Verif.Model.Blocking
import Verif.Proofs.Blocking
import Verif.Props.Blocking
import Verif.Props.Instances
import Verif.Props.Instances2
import Verif.Props.Clock
import Verif.Props.ForgedIssuer
import Verif.Props.Purpose
import Verif.Props.Impostor
import Verif.Spec.Textbook
import Verif.Props.Textbook
import Verif.Props.LaterAlert
import Verif.Props.AbortedOnly
import Verif.Model.EmbeddedIo
import Verif.Props.EmbeddedIo
import Verif.Props.Instances3
import Verif.Model.Rsa
import Verif.Spec.Rsa
import Verif.Proofs.Rsa
import Verif.Props.Rsa
import Verif.Spec.P384
import Verif.Model.P384
import Verif.Proofs.P384Primes
import Verif.Proofs.P384Curve
import Verif.Proofs.P384
import Verif.Proofs.P384Order
import Verif.Proofs.P384Sec1
import Verif.Proofs.P384Der
import Verif.Props.P384
import Verif.Props.Verdict
import Verif.Props.Ending
import Verif.Props.HalfClose
import Verif.Props.DerSession
import Verif.Props.Instances4
import Verif.Props.AnyServer
import Verif.Props.AnyServer2
import Verif.Model.Threads
import Verif.Model.FineGrain
import Verif.Props.Threads
import Verif.Props.Tasks
import Verif.Props.FineGrain
import Verif.Props.Rejoin
import Verif.Props.DropHalf
import Verif.Model.Memory
import Verif.Props.Memory
import Verif.Props.Overhead
import Verif.Props.Prompt
import Verif.Props.PromptOpen
import Verif.Props.Amplify
import Verif.Props.LargerBuffer
import Verif.Props.Groups
