import Verif.Lemmas.Accepted
import Verif.Lemmas.Anyone
import Verif.Lemmas.AnyoneHistory
import Verif.Lemmas.AnyoneHonest
import Verif.Lemmas.AssetDef
import Verif.Lemmas.Balance
import Verif.Lemmas.BalanceExact
import Verif.Lemmas.Basic
import Verif.Lemmas.Builders
import Verif.Lemmas.CircuitBuild
import Verif.Lemmas.CircuitDen
import Verif.Lemmas.CircuitGates
import Verif.Lemmas.CircuitKeys
import Verif.Lemmas.CircuitNew
import Verif.Lemmas.CircuitRead
import Verif.Lemmas.CircuitSafe
import Verif.Lemmas.CircuitSafeGates
import Verif.Lemmas.Complete
import Verif.Lemmas.CompleteMintFreeze
import Verif.Lemmas.Doc
import Verif.Lemmas.FieldSum
import Verif.Lemmas.Forge
import Verif.Lemmas.ForgeMintFreeze
import Verif.Lemmas.ForgeViewed
import Verif.Lemmas.Freezer
import Verif.Lemmas.Generate
import Verif.Lemmas.GenerateMintFreeze
import Verif.Lemmas.GenerateTransfer
import Verif.Lemmas.Generated
import Verif.Lemmas.HostCircuit
import Verif.Lemmas.Keeper
import Verif.Lemmas.KeeperBlock
import Verif.Lemmas.KeeperScan
import Verif.Lemmas.KeeperWorld
import Verif.Lemmas.Ledger
import Verif.Lemmas.LedgerAccept
import Verif.Lemmas.LedgerHistory
import Verif.Lemmas.Left
import Verif.Lemmas.Memo
import Verif.Lemmas.MemoGenerated
import Verif.Lemmas.MemoHost
import Verif.Lemmas.NoPanic
import Verif.Lemmas.Opened
import Verif.Lemmas.Params
import Verif.Lemmas.Pay
import Verif.Lemmas.PayAsset
import Verif.Lemmas.Private
import Verif.Lemmas.Prog
import Verif.Lemmas.RevealMap
import Verif.Lemmas.Scan
import Verif.Lemmas.ScanBlock
import Verif.Lemmas.Serde
import Verif.Lemmas.Spends
import Verif.Lemmas.Sum
import Verif.Lemmas.Tree
import Verif.Lemmas.Validator
import Verif.Lemmas.Verify
import Verif.Lemmas.View
import Verif.Lemmas.Wallet
import Verif.Lemmas.Wire
import Verif.Lemmas.World
import Verif.Model.Bench
import Verif.Model.Builders
import Verif.Model.Bytes
import Verif.Model.Cache
import Verif.Model.Circuit.Build
import Verif.Model.Circuit.Freeze
import Verif.Model.Circuit.Keys
import Verif.Model.Circuit.Mint
import Verif.Model.Circuit.Plonk
import Verif.Model.Circuit.Size
import Verif.Model.Circuit.Structs
import Verif.Model.Circuit.Transfer
import Verif.Model.Depth
import Verif.Model.Env
import Verif.Model.Ext
import Verif.Model.Freezer
import Verif.Model.Issuer
import Verif.Model.KeyBytes
import Verif.Model.Keys
import Verif.Model.Ledger
import Verif.Model.Memo
import Verif.Model.Notes
import Verif.Model.Params
import Verif.Model.Proof
import Verif.Model.Serde
import Verif.Model.Srs
import Verif.Model.Structs
import Verif.Model.Toy
import Verif.Model.ToyNotes
import Verif.Model.ToyParams
import Verif.Model.ToySerde
import Verif.Model.ToyWire
import Verif.Model.Txn
import Verif.Model.Utils
import Verif.Model.Validator
import Verif.Model.Wallet
import Verif.Model.Wire
import Verif.Props.C01
import Verif.Props.C02
import Verif.Props.C03
import Verif.Props.C04
import Verif.Props.C05
import Verif.Props.C06
import Verif.Props.C07
import Verif.Props.C08
import Verif.Props.C09
import Verif.Props.C10
import Verif.Props.C100
import Verif.Props.C101
import Verif.Props.C102
import Verif.Props.C103
import Verif.Props.C104
import Verif.Props.C105
import Verif.Props.C11
import Verif.Props.C12
import Verif.Props.C13
import Verif.Props.C14
import Verif.Props.C15
import Verif.Props.C16
import Verif.Props.C17
import Verif.Props.C18
import Verif.Props.C19
import Verif.Props.C20
import Verif.Props.C21
import Verif.Props.C22
import Verif.Props.C23
import Verif.Props.C24
import Verif.Props.C25
import Verif.Props.C26
import Verif.Props.C27
import Verif.Props.C28
import Verif.Props.C29
import Verif.Props.C30
import Verif.Props.C31
import Verif.Props.C32
import Verif.Props.C33
import Verif.Props.C34
import Verif.Props.C35
import Verif.Props.C36
import Verif.Props.C37
import Verif.Props.C38
import Verif.Props.C39
import Verif.Props.C40
import Verif.Props.C41
import Verif.Props.C42
import Verif.Props.C43
import Verif.Props.C44
import Verif.Props.C45
import Verif.Props.C46
import Verif.Props.C47
import Verif.Props.C48
import Verif.Props.C49
import Verif.Props.C50
import Verif.Props.C51
import Verif.Props.C52
import Verif.Props.C53
import Verif.Props.C54
import Verif.Props.C55
import Verif.Props.C56
import Verif.Props.C57
import Verif.Props.C58
import Verif.Props.C59
import Verif.Props.C60
import Verif.Props.C61
import Verif.Props.C62
import Verif.Props.C63
import Verif.Props.C64
import Verif.Props.C65
import Verif.Props.C66
import Verif.Props.C67
import Verif.Props.C68
import Verif.Props.C69
import Verif.Props.C70
import Verif.Props.C71
import Verif.Props.C72
import Verif.Props.C73
import Verif.Props.C74
import Verif.Props.C75
import Verif.Props.C76
import Verif.Props.C77
import Verif.Props.C78
import Verif.Props.C79
import Verif.Props.C80
import Verif.Props.C81
import Verif.Props.C82
import Verif.Props.C83
import Verif.Props.C84
import Verif.Props.C85
import Verif.Props.C86
import Verif.Props.C87
import Verif.Props.C88
import Verif.Props.C89
import Verif.Props.C90
import Verif.Props.C91
import Verif.Props.C92
import Verif.Props.C93
import Verif.Props.C94
import Verif.Props.C95
import Verif.Props.C96
import Verif.Props.C97
import Verif.Props.C98
import Verif.Props.C99
import Verif.Spec
import Verif.SpecAnyone
import Verif.SpecBooks
import Verif.SpecBuilt
import Verif.SpecComplete
import Verif.SpecDoc
import Verif.SpecFreezer
import Verif.SpecHolder
import Verif.SpecIssuer
import Verif.SpecKeeper
import Verif.SpecLedger
import Verif.SpecOwner
import Verif.SpecParams
import Verif.SpecPolicy
import Verif.SpecPrivate
import Verif.SpecScan
import Verif.SpecTogether
import Verif.SpecView
import Verif.SpecWallet
