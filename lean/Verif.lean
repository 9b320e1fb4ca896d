import Verif.Addr
import Verif.AnyFee
import Verif.Bank
import Verif.Basic
import Verif.Bytes.Abi
import Verif.Bytes.Base58
import Verif.Bytes.Borsh
import Verif.Bytes.Packet
import Verif.Bytes.Pda
import Verif.Bytes.Sha256
import Verif.Bytes.Wire
import Verif.Client.Calculations
import Verif.Codegen
import Verif.Convertors
import Verif.Demo
import Verif.Fee
import Verif.Idl
import Verif.Lockup.Instructions
import Verif.Lockup.Math
import Verif.Lockup.State
import Verif.Lockup.Validations
import Verif.Machine
import Verif.Merkle.Builder
import Verif.Merkle.Instructions
import Verif.Merkle.State
import Verif.Merkle.Validations
import Verif.Proofs.Abi
import Verif.Proofs.Approvals
import Verif.Proofs.BankInv
import Verif.Proofs.Base58
import Verif.Proofs.Borsh
import Verif.Proofs.CampaignInv
import Verif.Proofs.CampaignReady
import Verif.Proofs.Classic
import Verif.Proofs.Codegen
import Verif.Proofs.ConfigInv
import Verif.Proofs.Count
import Verif.Proofs.CreateReady
import Verif.Proofs.Did
import Verif.Proofs.Errors
import Verif.Proofs.Exact
import Verif.Proofs.Ext
import Verif.Proofs.Frame
import Verif.Proofs.Inv
import Verif.Proofs.Lamports
import Verif.Proofs.Locality
import Verif.Proofs.LocalityIx
import Verif.Proofs.LogFree
import Verif.Proofs.Math
import Verif.Proofs.Metadata
import Verif.Proofs.NftInv
import Verif.Proofs.NftSupply
import Verif.Proofs.Oracle
import Verif.Proofs.Packet
import Verif.Proofs.Panic
import Verif.Proofs.Pda
import Verif.Proofs.Races
import Verif.Proofs.Ready
import Verif.Proofs.Settings
import Verif.Proofs.StreamInv
import Verif.Proofs.StreamSteps
import Verif.Proofs.Tokens
import Verif.Proofs.Tree
import Verif.Proofs.Truthful
import Verif.Proofs.VaultFlow
import Verif.Proofs.VaultInv
import Verif.Proofs.Wire
import Verif.Props.Abi
import Verif.Props.Airdrop
import Verif.Props.AnyFee
import Verif.Props.AnyFeeHistory
import Verif.Props.Approvals
import Verif.Props.Backing
import Verif.Props.Batch
import Verif.Props.Books
import Verif.Props.Bytes
import Verif.Props.Campaign
import Verif.Props.Cancel
import Verif.Props.Client
import Verif.Props.Codegen
import Verif.Props.Convert
import Verif.Props.Create
import Verif.Props.Custody
import Verif.Props.Deliver
import Verif.Props.Errors
import Verif.Props.EventLog
import Verif.Props.Flows
import Verif.Props.Freeze
import Verif.Props.Hazards
import Verif.Props.Holder
import Verif.Props.Init
import Verif.Props.Locality
import Verif.Props.Metadata
import Verif.Props.Packet
import Verif.Props.Panic
import Verif.Props.Portfolio
import Verif.Props.Protocol
import Verif.Props.Races
import Verif.Props.RentRule
import Verif.Props.Replay
import Verif.Props.Resolve
import Verif.Props.Schedule
import Verif.Props.Scripts
import Verif.Props.Settings
import Verif.Props.Solvency
import Verif.Props.Squat
import Verif.Props.Status
import Verif.Props.Surplus
import Verif.Props.Transactions
import Verif.Props.Treasury
import Verif.Props.Tree
import Verif.Props.Unstoppable
import Verif.Props.VaultRent
import Verif.Props.Views
import Verif.Props.Wire
import Verif.Props.Withdraw
import Verif.Scripts
import Verif.Spec.Abi
import Verif.Spec.Accounts
import Verif.Spec.Airdrop
import Verif.Spec.AnyFee
import Verif.Spec.AnyFeeHistory
import Verif.Spec.Api
import Verif.Spec.Backing
import Verif.Spec.Batch
import Verif.Spec.Campaign
import Verif.Spec.Classic
import Verif.Spec.Codegen
import Verif.Spec.Convert
import Verif.Spec.CreateFor
import Verif.Spec.Deliver
import Verif.Spec.Derive
import Verif.Spec.Effects
import Verif.Spec.Errors
import Verif.Spec.History
import Verif.Spec.Holder
import Verif.Spec.Lamports
import Verif.Spec.Locality
import Verif.Spec.Metadata
import Verif.Spec.Packet
import Verif.Spec.Panic
import Verif.Spec.Portfolio
import Verif.Spec.Protocol
import Verif.Spec.Races
import Verif.Spec.RentRule
import Verif.Spec.Rents
import Verif.Spec.Replay
import Verif.Spec.Resolve
import Verif.Spec.Settings
import Verif.Spec.Signers
import Verif.Spec.Status
import Verif.Spec.Stream
import Verif.Spec.Surplus
import Verif.Spec.Terms
import Verif.Spec.Transactions
import Verif.Spec.Treasury
import Verif.Spec.Tree
import Verif.Spec.TreeHistory
import Verif.Spec.Wire
import Verif.World
