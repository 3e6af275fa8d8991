import Verif.Cbor
import Verif.Types
import Verif.CborLemmas
import Verif.CborSchemas
import Verif.Common
import Verif.Msg1
import Verif.Msg2
import Verif.Msg3
import Verif.Msg4
import Verif.Exporter
import Verif.ErrorMsg
import Verif.Helpers
import Verif.Api
import Verif.Toy
import Verif.Logic
import Verif.Inner
import Verif.Outer
import Verif.Outer1
import Verif.Success
import Verif.Spec
import Verif.Success2
import Verif.SpecWire
import Verif.MacCtx
import Verif.Message
import Verif.Facts
import Verif.Message2
import Verif.Message3
import Verif.OuterX
import Verif.Step
import Verif.ToyRun
import Verif.Props.History
import Verif.SpecConfig
import Verif.Props.Setters
import Verif.Chain
import Verif.Export
import Verif.Phase
import Verif.Props.Phases
import Verif.SpecCbor
import Verif.CborSound
import Verif.SpecCalls
import Verif.Received
import Verif.Bridge
import Verif.Props.Auth
import Verif.After
import Verif.SpecKeys
import Verif.CborGrammar
import Verif.Record
import Verif.Growth
import Verif.ToyCheck
import Verif.Props.Transcript
import Verif.Props.Keys
import Verif.SpecPrims
import Verif.ToyPeers
import Verif.Props.Agree
import Verif.CborRound
import Verif.Props.Mirror
import Verif.Props.Negotiation
import Verif.SpecRound
import Verif.Sent
import Verif.Config
import Verif.Props.Wire
import Verif.Delivery
import Verif.Props.Ead
import Verif.Props.EadRound
import Verif.Props.Malformed
import Verif.SpecSafety
import Verif.Safe
import Verif.Safe2
import Verif.Safe3
import Verif.Safe4
import Verif.Props.Safety
import Verif.OnCtx
import Verif.Props.Secrets
import Verif.Logs
import Verif.SpecHandles
import Verif.SpecTrace
import Verif.Emits
import Verif.Props.Handles
import Verif.Props.Separation
import Verif.SpecHelpers
import Verif.Props.Codec
import Verif.SpecItem
import Verif.CborItem
import Verif.SpecBinding
import Verif.Props.Binding
import Verif.SpecHonest
import Verif.Eval
import Verif.Eval2
import Verif.Eval3
import Verif.Eval4
import Verif.Eval5
import Verif.Eval6
import Verif.Eval7
import Verif.Eval8
import Verif.Props.Complete
import Verif.Props.Sizes
import Verif.SpecShared
import Verif.Sync
import Verif.Sync2
import Verif.Props.Shared
import Verif.SpecCodes
import Verif.Codes
import Verif.Codes2
import Verif.Codes3
import Verif.Codes4
import Verif.Props.Codes
import Verif.Props.Role4
import Verif.Mem
import Verif.MemSkeleton
import Verif.Props.Memory
import Verif.Replay
import Verif.Suite.Psa
import Verif.Suite.Impl
import Verif.Suite.Logic
import Verif.Suite.Env
import Verif.SpecSuite
import Verif.Suite.Sound
import Verif.Suite.Works
import Verif.Suite.Faithful
import Verif.Suite.Computes
import Verif.Suite.Prims
import Verif.Suite.Toy
import Verif.Suite.ToyShake
import Verif.Props.Suites
import Verif.SpecSuiteParties
import Verif.Suite.Prime
import Verif.Suite.Decompress
import Verif.Suite.Honest
import Verif.Props.SuiteHandshake
import Verif.Gen.Refine1
import Verif.Gen.Refine2
import Verif.Gen.EncodeEq
import Verif.Props.Generated
import Verif.Pqc.Impl
import Verif.SpecPqc
import Verif.Pqc.Logic
import Verif.Pqc.Keys
import Verif.Pqc.Toy
import Verif.Props.PostQuantum
import Verif.Real.Sha2
import Verif.Real.Aead
import Verif.Real.Curve
import Verif.Real.Group
import Verif.Real.Primes
import Verif.Real.Nist
import Verif.Real.NistLaws
import Verif.Real.X25519
import Verif.Real.X25519Laws
import Verif.Real.Ed25519Laws
import Verif.Real.Algs
import Verif.Props.Standard
import Verif.Real.Rfc2
import Verif.Real.Rfc2I
import Verif.Real.Rfc2R
import Verif.Real.Rfc3
import Verif.Real.Rfc3I
import Verif.Real.Rfc3R
import Verif.SpecPeer
import Verif.Props.Peer
import Verif.Props.IdCred
import Verif.SpecSuitePeer
import Verif.SpecSuiteAnswers
import Verif.Props.SuitePeer
import Verif.Props.SuiteAnswers
import Verif.Props.Conformance
import Verif.SpecAnswers
import Verif.Props.Answers
import Verif.Events
import Verif.Heads
import Verif.Locate
import Verif.SpecAgreement
import Verif.Sides
import Verif.Props.Agreement
import Verif.Seal
import Verif.SpecConfirm
import Verif.Props.Confirm
import Verif.Once
import Verif.SpecMatching
import Verif.Props.Matching
import Verif.Conform.Mock
import Verif.Conform.Replay
import Verif.Conform.Helpers
import Verif.SpecDemand
import Verif.Demand
import Verif.Demand2
import Verif.Demand3
import Verif.Demand4
import Verif.Demand5
import Verif.Props.Demand
import Verif.Gen.Unused
import Verif.Gen.Invert
import Verif.SpecCodec2
import Verif.Props.Generated2
import Verif.Props.Forget
import Verif.SpecSuiteNetwork
import Verif.Props.SuiteNetwork
import Verif.SpecSigning
import Verif.Props.Signing
import Verif.SpecStatic
import Verif.Agree
import Verif.Props.StaticKey
import Verif.Residue
import Verif.SpecResidue
import Verif.ResidueFacts
import Verif.ResidueStale
import Verif.ResidueStep
import Verif.Props.Residue
import Verif.SpecIdentity
import Verif.Props.Identity
import Verif.SpecDowngrade
import Verif.Props.Downgrade
import Verif.SpecWork
import Verif.Tally
import Verif.TallyAt
import Verif.Props.Work
import Verif.SpecKeyShare
import Verif.Props.KeyShare
import Verif.SpecBuffer
import Verif.Buffer
import Verif.Props.Buffers
import Verif.SpecCovers
import Verif.Covers
import Verif.Props.Covers
import Verif.LogBackend
import Verif.SpecLog
import Verif.LogText
import Verif.Props.Logging
import Verif.SpecSuiteKeyShare
import Verif.Props.SuiteKeyShare
import Verif.Wipe
import Verif.WipeSkeleton
import Verif.SpecWipe
import Verif.WipeCheck
import Verif.Props.Wiping
import Verif.SpecLife
import Verif.Props.Life
import Verif.SpecNesting
import Verif.Nesting
import Verif.Props.Nesting
import Verif.SpecScript
import Verif.Props.Script
import Verif.EmitsAt
import Verif.Props.ScriptExact
import Verif.SealKey
import Verif.SpecOneKey
import Verif.Props.OneKey
import Verif.OpenKey
import Verif.Props.AeadKeys
import Verif.Props.SuiteAead
import Verif.SpecReplay
import Verif.Props.Recorded
import Verif.SpecDistinct
import Verif.Props.Distinct
import Verif.SpecStore
import Verif.Props.Store
import Verif.SpecConcurrent
import Verif.Props.Concurrent
import Verif.Props.ConcurrentAnswers
import Verif.Props.ForgetSuites
import Verif.SpecService
import Verif.Props.Service
import Verif.Props.ServiceConcurrent
