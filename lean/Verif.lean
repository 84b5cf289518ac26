import Verif.Model.Base
import Verif.Model.Conversion
import Verif.Spec.Conversion
import Verif.Spec.Radix
import Verif.Spec.Ints
import Verif.Spec.Base64
import Verif.Lemmas.Bytes
import Verif.Lemmas.Hex
import Verif.Lemmas.Bin
import Verif.Lemmas.Radix
import Verif.Lemmas.Ints
import Verif.Lemmas.Base64
import Verif.Props.Hex
import Verif.Props.Bin
import Verif.Props.Radix
import Verif.Props.Ints
import Verif.Props.Base64
import Verif.Model.Stream
import Verif.Model.Script
import Verif.Model.Transaction
import Verif.Spec.Wire
import Verif.Spec.Abs
import Verif.Spec.Parse
import Verif.Lemmas.Ser
import Verif.Lemmas.ToStream
import Verif.Lemmas.Parse
import Verif.Lemmas.ScriptParse
import Verif.Lemmas.InOutParse
import Verif.Lemmas.ListParse
import Verif.Props.Serialize
import Verif.Props.Build
import Verif.Lemmas.WitnessParse
import Verif.Lemmas.TxParse
import Verif.Lemmas.TxFeed
import Verif.Spec.Pieces
import Verif.Lemmas.TxCodec
import Verif.Lemmas.Pieces
import Verif.Props.Parse
import Verif.Props.Stream
import Verif.Spec.Sha2
import Verif.Spec.Ripemd
import Verif.Spec.Rfc6979
import Verif.Model.Sha2
import Verif.Model.Ripemd
import Verif.Model.Hash
import Verif.Lemmas.Sha2Transform
import Verif.Lemmas.Sha2Stream
import Verif.Lemmas.Sha2Words
import Verif.Lemmas.Ripemd
import Verif.Lemmas.Hmac
import Verif.Props.Hash
import Verif.Model.TxHash
import Verif.Spec.SigHash
import Verif.Spec.Codec
import Verif.Lemmas.TxHash
import Verif.Lemmas.Codec
import Verif.Props.TxHash
import Verif.Model.Bech32
import Verif.Spec.Bech32
import Verif.Lemmas.Bech32
import Verif.Lemmas.Bech32Codec
import Verif.Lemmas.Bech32Decode
import Verif.Lemmas.ConvertBits
import Verif.Props.Bech32
import Verif.Props.Segwit
import Verif.Model.Address
import Verif.Spec.Script
import Verif.Lemmas.Base58Decode
import Verif.Props.Script
import Verif.Props.Address
import Verif.Model.Signature
import Verif.Spec.Der
import Verif.Props.Signature
import Verif.Model.Bignum
import Verif.Model.BignumInverse
import Verif.Model.Secp256k1
import Verif.Spec.Bignum
import Verif.Spec.Secp256k1
import Verif.Lemmas.Bignum
import Verif.Lemmas.BignumMul
import Verif.Lemmas.BignumIO
import Verif.Lemmas.BignumInverse
import Verif.Lemmas.BignumLoop
import Verif.Lemmas.BignumDiv
import Verif.Lemmas.Primes
import Verif.Props.Bignum
import Verif.Spec.Curve
import Verif.Spec.BasePoint
import Verif.Model.Curve
import Verif.Model.SecpTable
import Verif.Model.CurveMul
import Verif.Lemmas.Residue
import Verif.Lemmas.Curve
import Verif.Lemmas.CurveData
import Verif.Lemmas.CurveTable
import Verif.Lemmas.CurvePoints
import Verif.Lemmas.CurveOrder
import Verif.Lemmas.CurveMul
import Verif.Lemmas.CurveInfinity
import Verif.Props.Curve
import Verif.Spec.Sec
import Verif.Spec.Ecdsa
import Verif.Model.Ecdsa
import Verif.Lemmas.PubKey
import Verif.Lemmas.Ecdsa
import Verif.Lemmas.EcdsaKeys
import Verif.Lemmas.CurveVector
import Verif.Props.Ecdsa
import Verif.Model.ECKey
import Verif.Spec.Point
import Verif.Spec.Schnorr
import Verif.Lemmas.ECKey
import Verif.Lemmas.ECKeyOps
import Verif.Lemmas.ECScalar
import Verif.Lemmas.Schnorr
import Verif.Lemmas.SchnorrVector
import Verif.Props.ECKey
import Verif.Props.PointOps
import Verif.Props.Schnorr
import Verif.Props.Keys
import Verif.Props.Secret
import Verif.Model.HDWallet
import Verif.Spec.HDWallet
import Verif.Lemmas.HDWallet
import Verif.Props.HDSer
import Verif.Props.HDText
import Verif.Spec.HDPath
import Verif.Props.HDPath
import Verif.Props.HDDerive
import Verif.Model.KeyAddress
import Verif.Props.KeyAddress
import Verif.Model.Wordlist
import Verif.Model.Mnemonic
import Verif.Spec.Mnemonic
import Verif.Lemmas.Wordlist
import Verif.Lemmas.FastSha
import Verif.Lemmas.WordlistHash
import Verif.Lemmas.Mnemonic
import Verif.Props.Mnemonic
import Verif.Props.Descriptor
import Verif.Model.PSBT
import Verif.Spec.PSBT
import Verif.Lemmas.PSBTParse
import Verif.Lemmas.PSBTMaps
import Verif.Lemmas.PSBTSections
import Verif.Lemmas.PSBTFields
import Verif.Lemmas.PSBTComplete
import Verif.Lemmas.PSBTSafe
import Verif.Props.PSBTParse
import Verif.Props.PSBTFee
import Verif.Props.PSBTLimits
import Verif.Lemmas.PSBTWrite
import Verif.Props.PSBTWrite
import Verif.Spec.PSBTSign
import Verif.Lemmas.PSBTSign
import Verif.Lemmas.PSBTSignLoop
import Verif.Props.PSBTSign
import Verif.Spec.Interp
import Verif.Model.TxSign
import Verif.Lemmas.TxSign
import Verif.Props.TxSign
import Verif.Model.Electrum
import Verif.Spec.Electrum
import Verif.Lemmas.Electrum
import Verif.Props.Electrum
import Verif.Props.ElectrumKeys
import Verif.Props.ElectrumMark
import Verif.Props.ElectrumMagic
import Verif.Props.ElectrumScriptType
import Verif.Props.ElectrumLegacyKeys
import Verif.Props.ElectrumHang
import Verif.Lemmas.TxReach
import Verif.Lemmas.ElectrumPieces
import Verif.Lemmas.ElectrumStep
import Verif.Props.ElectrumPieces
import Verif.Props.PSBTMine
import Verif.Lemmas.PSBTPieces
import Verif.Props.PSBTPieces
import Verif.Props.PSBTMagic
import Verif.Props.PSBTKeyCut
import Verif.Props.PSBTBetween
import Verif.Model.Heap
import Verif.Model.HeapProgram
import Verif.Lemmas.Heap
import Verif.Lemmas.HeapScript
import Verif.Lemmas.HeapParse
import Verif.Lemmas.HeapWitness
import Verif.Spec.HeapProgram
import Verif.Lemmas.HeapProgram
import Verif.Props.HeapProgram
import Verif.Model.Copy
import Verif.Lemmas.PSBTLife
import Verif.Props.PSBTLife
import Verif.Props.PSBTSafe
import Verif.Model.Text
import Verif.Props.Text
import Verif.Props.Base64Any
import Verif.Spec.Wide
import Verif.Props.ParseSafe
import Verif.Props.Recover
import Verif.Props.Strings
import Verif.Model.HeapTx
import Verif.Model.HeapTxProgram
import Verif.Lemmas.HeapSep
import Verif.Lemmas.HeapTx
import Verif.Spec.HeapTxProgram
import Verif.Lemmas.HeapTxProgram
import Verif.Props.HeapTxProgram
import Verif.Lemmas.HeapTxParse
import Verif.Lemmas.TxSettle
import Verif.Lemmas.TxResume
import Verif.Lemmas.HeapTxParse2
import Verif.Lemmas.TxWhole
import Verif.Lemmas.WitRoom
import Verif.Lemmas.HeapTxParseProgram
import Verif.Model.HeapTxParseProgram
import Verif.Spec.HeapTxParseProgram
import Verif.Props.HeapTxParseProgram
import Verif.Model.MnemonicSeed
import Verif.Spec.MnemonicSeed
import Verif.Props.MnemonicSeed
import Verif.Model.HeapPSBT
import Verif.Lemmas.HeapLogic
import Verif.Lemmas.HeapPsbtMeta
import Verif.Lemmas.HeapPsbtAdd
import Verif.Spec.HeapPsbtLoss
import Verif.Lemmas.PSBTWell
import Verif.Lemmas.HeapPsbt
import Verif.Lemmas.HeapPsbtParse
import Verif.Lemmas.HeapPsbtStream
import Verif.Model.HeapPsbtProgram
import Verif.Spec.HeapPsbtProgram
import Verif.Lemmas.HeapPsbtProgram
import Verif.Props.HeapPsbtProgram
import Verif.Model.HeapElectrum
import Verif.Spec.HeapElectrum
import Verif.Lemmas.HeapElectrum
import Verif.Lemmas.HeapElectrumProgram
import Verif.Props.HeapElectrum
import Verif.Model.Random
import Verif.Props.Random
import Verif.Props.RandomRange
import Verif.Model.HashLife
import Verif.Spec.HashLife
import Verif.Props.HashLife
import Verif.Model.TrezorBase58
import Verif.Props.TrezorBase58
import Verif.Model.TrezorKeys
import Verif.Props.TrezorKeys
import Verif.Spec.Decimal
import Verif.Model.BignumFormat
import Verif.Props.BignumFormat
import Verif.Spec.Sha3
import Verif.Model.Sha3
import Verif.Lemmas.Sha3Rounds
import Verif.Lemmas.Sha3Stream
import Verif.Props.Sha3
import Verif.Model.KeySort
import Verif.Props.KeySort
import Verif.Model.RandomScalar
import Verif.Props.RandomScalar
import Verif.Model.DigestText
import Verif.Props.DigestText
import Verif.Props.PSBTUnique
import Verif.Model.Errno
import Verif.Props.Errno
import Verif.Props.SignFrame
import Verif.Model.TxBuild
import Verif.Props.TxBuild
import Verif.Props.Cosign
import Verif.Spec.Spend
import Verif.Props.Receive
import Verif.Props.WatchOnly
import Verif.Spec.Wallet
import Verif.Props.Wallet
import Verif.Props.Device
import Verif.Model.Multisig
import Verif.Props.Vault
import Verif.Model.Payment
import Verif.Props.Payment
import Verif.Lemmas.Nonce
import Verif.Props.PaymentVector
import Verif.Props.SignVector
import Verif.Props.WatchSpend
import Verif.Props.Blinding
