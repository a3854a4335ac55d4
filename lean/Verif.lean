import Verif.Props.Hex
import Verif.Props.Bech32
import Verif.Props.Base58
import Verif.Props.Address
import Verif.Props.Util
import Verif.Props.Kes
import Verif.Props.Cbor
import Verif.Props.Byron
import Verif.Props.Bip173
import Verif.Props.Cip19
import Verif.Props.KesSound
import Verif.Spec.KesLife
import Verif.Props.KesLife
import Verif.Props.KesPeriod
import Verif.Props.KesEd25519
import Verif.Props.ByronCrc
import Verif.Props.ByronFlips
import Verif.Props.ByronKey
import Verif.Props.Ada
import Verif.Props.SecMem
import Verif.Props.UtxoJson
import Verif.Props.Mnemonic
import Verif.Props.Bip32
import Verif.Props.Tss
import Verif.Props.TssShamir
import Verif.Props.TssExact
import Verif.Props.TssSign
import Verif.Props.TssWallet
import Verif.Props.Ledger
import Verif.Props.LedgerTx
import Verif.Props.LedgerInto
import Verif.Props.LedgerStable
import Verif.Props.LedgerCddl
import Verif.Props.LedgerSafe
import Verif.Spec.LedgerMeaning
import Verif.Props.LedgerMeaning
import Verif.Props.LedgerGrammar
import Verif.Props.LedgerWritten
import Verif.Props.TxFee
import Verif.Props.TxBuilder
import Verif.Props.TxTotals
import Verif.Props.TxBalance
import Verif.Props.TxForce
import Verif.Props.TxFailed
import Verif.Props.TxStale
import Verif.Props.Ed25519
import Verif.Props.Vrf
import Verif.Props.Rational
import Verif.Props.OpCert
import Verif.Props.PoolReg
import Verif.Props.KeyFiles
import Verif.Props.KesFile
import Verif.Props.Genesis
import Verif.Props.ColdKey
import Verif.Props.CertFiles
import Verif.Model.BabbageBuilder
import Verif.Spec.BabbageHistory
import Verif.Props.BabbageFee
import Verif.Props.BabbageBuilder
import Verif.Lemmas.Edwards
import Verif.Lemmas.Ed25519Curve
import Verif.Spec.Edwards25519
import Verif.Lemmas.Ed25519Card
import Verif.Props.Edwards25519
import Verif.Lemmas.Bech32Dist
import Verif.Lemmas.Bech32Cap
import Verif.Props.Bech32Errors
import Verif.Props.TssDealer
import Verif.Props.LedgerErrors
import Verif.Props.Errors
import Verif.Props.TssDirectSecrecy
import Verif.Props.MnemonicLang
import Verif.Model.AddressKeys
import Verif.Spec.LedgerRules
import Verif.Spec.Wallet
import Verif.Props.Wallet
import Verif.Spec.LedgerEffect
import Verif.Props.LedgerEffect
import Verif.Props.WalletKeys
import Verif.Spec.BlockRules
import Verif.Spec.Operator
import Verif.Props.Operator
import Verif.Spec.BabbageRules
import Verif.Props.BabbageWallet
import Verif.Props.Restore
import Verif.Model.PoolKeysProgram
import Verif.Props.PoolKeysProgram
import Verif.Props.PoolKeysDisk
import Verif.Props.PoolKeysCrash
import Verif.Spec.Sha2
import Verif.Spec.Blake2b
import Verif.Spec.ChaCha
import Verif.Spec.Sha3
import Verif.Lemmas.EdFast
import Verif.Props.Real
import Verif.Vectors.Keys
import Verif.Vectors.Addresses
import Verif.Vectors.Byron
import Verif.Vectors.Transactions
import Verif.Vectors.Pool
import Verif.Vectors.Kes
import Verif.Vectors.KesKeygen
import Verif.Vectors.KesUpdate
import Verif.Vectors.Mnemonic
import Verif.Spec.Elligator
import Verif.Props.VrfReal
import Verif.Vectors.Vrf
import Verif.Vectors.Genesis
import Verif.Vectors.GenesisText
import Verif.Vectors.Tss
import Verif.Spec.BabbageMeaning
import Verif.Props.BabbageWritten
import Verif.Props.BabbageSent
import Verif.Props.BabbageWire
import Verif.Props.PayText
import Verif.Spec.Rfc8949
import Verif.Props.CborRfc
import Verif.Spec.Wire
import Verif.Props.TxMade
import Verif.Props.Wire
import Verif.Spec.Cosign
import Verif.Props.Cosign
import Verif.Props.TssChain
import Verif.Spec.LedgerFaults
import Verif.Props.LedgerFaults
import Verif.Spec.GenesisFaults
import Verif.Props.GenesisFaults
import Verif.Props.GenesisText
import Verif.Props.SetOrder
import Verif.Props.TextHex
import Verif.Props.ByronCanonical
import Verif.Props.ByronFaults
import Verif.Props.ByronMalformed
import Verif.Props.BabbageOrder
import Verif.Props.ByronDeterministic
import Verif.Props.Deterministic
import Verif.Props.UtxoFaults
import Verif.Props.AdaExact
import Verif.Props.EnvelopeJson
import Verif.Props.PoolKeysJson
