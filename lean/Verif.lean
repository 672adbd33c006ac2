import Verif.Abi
import Verif.AbiProofs
import Verif.Admit
import Verif.Aggregation
import Verif.Amount
import Verif.ArtifactProofs
import Verif.ArtifactStore
import Verif.Artifacts
import Verif.Atomic
import Verif.Basic
import Verif.Bridge
import Verif.Calibrate
import Verif.CalibrateProofs
import Verif.Cli
import Verif.Config
import Verif.Conform
import Verif.ConformClear
import Verif.ConformEvents
import Verif.ConformGovSol
import Verif.ConformL1
import Verif.ConformReal
import Verif.ConformSolCancel
import Verif.ConformSolDispense
import Verif.ConformSolMisc
import Verif.ConformSolRegistry
import Verif.ConformSolReward
import Verif.ConformSolSlash
import Verif.ConformSolStake
import Verif.ConformSolTransfer
import Verif.ConformSolUnstake
import Verif.ConformVapp
import Verif.ConformVappSol
import Verif.Custody
import Verif.Decode
import Verif.DecodeAll
import Verif.DecodeBodies
import Verif.DecodeFields
import Verif.DecodeProofs
import Verif.DecodeSpec
import Verif.Deploy
import Verif.Domain
import Verif.ErrorCapture
import Verif.EventBacking
import Verif.EventFlow
import Verif.EventFrames
import Verif.EventProofs
import Verif.EventSpec
import Verif.EventTold
import Verif.EventTold2
import Verif.EventTold3
import Verif.Events
import Verif.Exec
import Verif.F64
import Verif.F64Proofs
import Verif.FeeProofs
import Verif.Frame
import Verif.GenesisRoot
import Verif.GovProofs
import Verif.Inversion
import Verif.InversionClear
import Verif.Json
import Verif.JsonProofs
import Verif.Keccak
import Verif.L1
import Verif.L1Blind
import Verif.L1Calls
import Verif.L1Claims
import Verif.L1Cover
import Verif.L1Fields
import Verif.L1Flow
import Verif.L1Frames
import Verif.L1Held
import Verif.L1Inv
import Verif.L1Lemmas
import Verif.L1Live
import Verif.L1Live2
import Verif.L1Live3
import Verif.L1Moves
import Verif.L1Rates
import Verif.L1Size
import Verif.L1Spend
import Verif.L1Stake
import Verif.L1StakeInv
import Verif.L1StakeInv2
import Verif.L1Staking
import Verif.L1Tokens
import Verif.L1Units
import Verif.L1Vapp
import Verif.L1VappInv
import Verif.L1Views
import Verif.Merkle
import Verif.MerkleProofs
import Verif.MerkleSpec
import Verif.MerkleUpdate
import Verif.Messages
import Verif.MetricServer
import Verif.Node
import Verif.NodeProofs
import Verif.NodeRun
import Verif.Numeral
import Verif.NumeralProofs
import Verif.Observe
import Verif.Overflow
import Verif.Permit
import Verif.PostDeploy
import Verif.Pricing
import Verif.Prime
import Verif.Prog
import Verif.PropsAdmit
import Verif.PropsAgg
import Verif.PropsAmount
import Verif.PropsArtifacts
import Verif.PropsAtomic
import Verif.PropsBacking
import Verif.PropsBatch
import Verif.PropsBid
import Verif.PropsBound
import Verif.PropsBridge
import Verif.PropsCalibrate
import Verif.PropsCapture
import Verif.PropsCaught
import Verif.PropsCli
import Verif.PropsConfig
import Verif.PropsCovered
import Verif.PropsCustody
import Verif.PropsDecode
import Verif.PropsDeploy
import Verif.PropsDocs
import Verif.PropsDomain
import Verif.PropsEventFlow
import Verif.PropsEvents
import Verif.PropsExit
import Verif.PropsGenesis
import Verif.PropsGov
import Verif.PropsJson
import Verif.PropsLedger
import Verif.PropsLedger2
import Verif.PropsLive
import Verif.PropsMerkle
import Verif.PropsMetrics
import Verif.PropsNode
import Verif.PropsNode2
import Verif.PropsNodeLedger
import Verif.PropsNodeRun
import Verif.PropsNodeTime
import Verif.PropsPanic
import Verif.PropsPending
import Verif.PropsPermit
import Verif.PropsPostDeploy
import Verif.PropsPrice
import Verif.PropsPricing
import Verif.PropsPrime
import Verif.PropsProgress
import Verif.PropsReceipts
import Verif.PropsRetry
import Verif.PropsScript
import Verif.PropsSetup
import Verif.PropsSilence
import Verif.PropsSolvency
import Verif.PropsSpared
import Verif.PropsStaking
import Verif.PropsStaking2
import Verif.PropsStaking3
import Verif.PropsStaking4
import Verif.PropsStf
import Verif.PropsStore
import Verif.PropsStorePar
import Verif.PropsTerms
import Verif.PropsTrust
import Verif.PropsVapp
import Verif.PropsWire
import Verif.Retry
import Verif.SMap
import Verif.Secp
import Verif.Setup
import Verif.Sim
import Verif.Sparse
import Verif.SparseProofs
import Verif.Spec
import Verif.Step
import Verif.Stf
import Verif.Toy
import Verif.ToyL1
import Verif.ToyStaking
import Verif.ToyStf
import Verif.Types
import Verif.Utf8
import Verif.Votes
import Verif.VotesProofs
import Verif.WireProofs
import Verif.Wp
