import Verif.Cli
import Verif.CliRun
import Verif.Logger
import Verif.Concrete.Ecdsa
import Verif.Props.Hex
import Verif.Props.Base58
import Verif.Props.Script
import Verif.Props.Amount
import Verif.Props.Validate
import Verif.Props.InOut
import Verif.Props.Tx
import Verif.Props.Sign
import Verif.Props.Json
import Verif.Props.Create
import Verif.Props.CreateErr
import Verif.Props.CreateMore
import Verif.Props.CreateWit
import Verif.Props.Cli
import Verif.Props.CliWit
import Verif.Props.CliKeys
import Verif.Props.SignOk
import Verif.Props.Logger
import Verif.Props.KeyOrder
import Verif.Props.CliRun
import Verif.Props.CliRunWit
import Verif.Props.Forms
import Verif.Props.Reload
import Verif.Props.Real
import Verif.Props.RealWit
import Verif.Conformance.Address
import Verif.Conformance.Tx1
import Verif.Conformance.Tx2
import Verif.Conformance.Create
import Verif.Conformance.Create2
import Verif.Argparse
import Verif.ArgSpec
import Verif.Lemmas.Args
import Verif.Lemmas.ArgsOnly
import Verif.Props.Args
import Verif.Props.Program
import Verif.Props.ProgramWit
import Verif.Conformance.Args
import Verif.Lemmas.Order
import Verif.Props.Order
import Verif.JsonSpec
import Verif.Lemmas.JsonRead
import Verif.Lemmas.JsonOnly
import Verif.Lemmas.JsonDump
import Verif.Props.JsonText
import Verif.Messages
import Verif.MsgSpec
import Verif.Lemmas.Messages
import Verif.Props.Messages
import Verif.Props.Messages2
import Verif.Props.MessagesWit
import Verif.Report
import Verif.ReportSpec
import Verif.Lemmas.Report
import Verif.Lemmas.ReportLog
import Verif.Lemmas.ReportFacts
import Verif.Lemmas.ReportErr
import Verif.Lemmas.ReportQuiet
import Verif.Lemmas.ReportDone
import Verif.Props.Report
import Verif.Props.Report2
import Verif.Props.Report3
import Verif.Props.ReportErr
import Verif.Props.ReportAdvice
import Verif.Props.ReportWit
import Verif.Conformance.Report
import Verif.TxLog
import Verif.TxLogSpec
import Verif.Lemmas.TxLog
import Verif.Lemmas.TxLogCli
import Verif.Lemmas.TxLogRuns
import Verif.Lemmas.TxLogRead
import Verif.Lemmas.TxLogOnly
import Verif.Lemmas.TxLogSecret
import Verif.Props.TxLog
import Verif.Props.TxLog2
import Verif.Props.TxLog3
import Verif.Props.TxLogWit
import Verif.HistSpec
import Verif.Lemmas.Hist
import Verif.Lemmas.HistHex
import Verif.Props.Hist
import Verif.Props.Hist2
import Verif.Props.HistWit
import Verif.CreateState
import Verif.RetrySpec
import Verif.Lemmas.Retry
import Verif.Lemmas.RetryTidy
import Verif.Lemmas.RetryAfter
import Verif.Lemmas.RetrySame
import Verif.Lemmas.RetryEdit
import Verif.Props.Retry
import Verif.Props.RetryWit
import Verif.Props.RelaxWit
import Verif.Props.AmountMsgWit
import Verif.Props.TamperWit
import Verif.Props.SameWit
import Verif.Props.SpareKeysWit
import Verif.Props.LedgerWit
import Verif.Props.WealthWit
import Verif.Props.MetWit
import Verif.Props.LogText
import Verif.DecodeSpec
import Verif.Lemmas.Decode
import Verif.Props.Decode
import Verif.Props.MoreCoins
import Verif.StartMsg
import Verif.Props.StartMsg
import Verif.Props.EcdsaForm
import Verif.Props.NonceForm
import Verif.Props.TxidFixed
import Verif.Props.Signer
import Verif.DictMsg
import Verif.Props.DictMsg
import Verif.Props.Messages3
import Verif.Props.Checksum
import Verif.Props.NonceFormWit
import Verif.Props.MoreCoinsWit
import Verif.Props.LogTextWit
