import Verif.Proofs.GossiperMain
import Verif.Spec.RefLib
import Verif.Props.Verify
import Verif.Props.Crypto
import Verif.Props.GossiperConc
import Verif.Props.GossiperFull
import Verif.Props.GossiperSeq
import Verif.Props.GossiperSeq2
import Verif.Props.GossiperSeq3
import Verif.Props.GossiperHonest
import Verif.Props.GossiperThreshold
import Verif.Props.GossiperMisc
import Verif.Props.FirstFull
import Verif.Props.FragOnce
import Verif.Props.CaughtLate
import Verif.Props.Quarantine
import Verif.Props.ConvictionFinal
import Verif.Props.OneFull
import Verif.Props.Util
import Verif.Props.Merkle
import Verif.Props.CertPool
import Verif.Props.CA
import Verif.Props.Logger
import Verif.Props.Monitor
import Verif.Props.MonitorUpdates
import Verif.Props.Client
import Verif.Props.Honest
import Verif.Props.Pipeline
import Verif.Props.ClientExamples
import Verif.Model.CryptoIO
import Verif.Model.Gen
import Verif.Props.CryptoIO
import Verif.Props.Gen
import Verif.Props.Deploy
import Verif.Model.Network
import Verif.Proofs.NetworkStep
import Verif.Proofs.NetworkNode
import Verif.Props.Network
import Verif.Model.NetworkSerial
import Verif.Proofs.NetworkSerial
import Verif.Proofs.NetworkFrag
import Verif.Proofs.NetworkOwn
import Verif.Props.GossiperLate
import Verif.Proofs.NetworkThreshold
import Verif.Props.NetworkThreshold
import Verif.Proofs.NetworkConc
import Verif.Proofs.NetworkConcNode
import Verif.Proofs.NetworkConcStep
import Verif.Proofs.NetworkConcNet
import Verif.Proofs.NetworkConcCause
import Verif.Props.NetworkConc
import Verif.Model.Json
import Verif.Proofs.Itoa
import Verif.Proofs.Json
import Verif.Model.Wire
import Verif.Proofs.Wire
import Verif.Proofs.WireLaws
import Verif.Proofs.Utf8
import Verif.Spec.JsonGrammar
import Verif.Proofs.JsonGrammar
import Verif.Proofs.GossiperObjs
import Verif.Proofs.WireGossiper
import Verif.Model.WireNet
import Verif.Proofs.WireNet
import Verif.Model.JsonIndent
import Verif.Proofs.JsonIndent
import Verif.Model.WireMonitor
import Verif.Proofs.WireMonitor
import Verif.Props.Wire
import Verif.Props.MonitorFiles
import Verif.Proofs.NetworkSplit
import Verif.Props.NetworkSplit
import Verif.Proofs.NetworkPayload
import Verif.Props.NetworkPayload
import Verif.Props.GossiperForward
import Verif.Model.Pem
import Verif.Props.Pem
import Verif.Model.FileTree
import Verif.Props.FileTree
import Verif.Model.System
import Verif.Proofs.System
import Verif.Props.Survives
import Verif.Props.System
import Verif.Proofs.NetworkConcShown
import Verif.Props.SystemAcc
import Verif.Props.SystemSth
import Verif.Props.ClientRevs
import Verif.Props.WireCodec
import Verif.Model.ClientFetch
import Verif.Props.ClientFetch
import Verif.Props.Lies
import Verif.Model.Schedule
import Verif.Props.Schedule
import Verif.Props.ScheduleCA
import Verif.Model.Delivery
import Verif.Props.Delivery
import Verif.Model.Routes
import Verif.Props.Routes
import Verif.Model.Locks
import Verif.Proofs.LocksSeq
import Verif.Proofs.Locks
import Verif.Proofs.LocksInv
import Verif.Props.Locks
import Verif.Model.LoggerConc
import Verif.Props.LoggerConc
import Verif.Model.CAConc
import Verif.Model.CATick
import Verif.Model.MonConc
import Verif.Props.CAConc
import Verif.Model.Races
import Verif.Props.Races
import Verif.Props.Replay
import Verif.Props.Contacts
import Verif.Props.CATick
import Verif.Props.MonConc
import Verif.Model.Hash
import Verif.Props.Hash
import Verif.Props.WireHonest
import Verif.Props.Printing
import Verif.Props.WireFits
import Verif.Model.RootHash
import Verif.Props.RootHash
import Verif.Model.Config
import Verif.Proofs.Config
import Verif.Props.Config
import Verif.Model.MapFiles
import Verif.Props.MapFiles
import Verif.Props.Accuse
import Verif.Props.CASurvives
import Verif.Props.Frag
import Verif.Model.Saves
import Verif.Props.Saves
import Verif.Props.SavesLogger
import Verif.Props.GossiperSurvives
import Verif.Props.GossiperJunk
import Verif.Props.CAIssues
import Verif.Props.Respell
import Verif.Props.RoundLog
import Verif.Model.MonRestart
import Verif.Props.MonRestart
import Verif.Props.ReplayRev
import Verif.Props.GenFiles
import Verif.Model.MapTree
import Verif.Props.MapTree
import Verif.Props.NetworkOpt
import Verif.Model.Latency
import Verif.Props.Latency
import Verif.Model.BlsId
import Verif.Props.BlsId
import Verif.Model.CAKeys
import Verif.Props.CAKeys
import Verif.Model.TestRun
import Verif.Props.TestRun
import Verif.Props.EndToEnd
import Verif.Props.EndToEndExamples
