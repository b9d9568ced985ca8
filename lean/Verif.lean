import Verif.Props.Canon
import Verif.Props.DomainKdf
import Verif.Props.Text
import Verif.Props.Perm
import Verif.Props.Clock
import Verif.Props.Ids
import Verif.Props.Padding
import Verif.Props.Cipher
import Verif.Props.Shmac
import Verif.Props.Stream
import Verif.Props.Guard
import Verif.Props.Salt
import Verif.Props.Token
import Verif.Props.Database
import Verif.Props.DatabaseTree
import Verif.Props.DatabaseKdf
import Verif.Props.PasscryptHash
import Verif.Props.PasscryptWalk
import Verif.Props.PasscryptVerify
import Verif.Props.Slots
import Verif.Props.Keys
import Verif.Props.KeysSame
import Verif.Props.KeysOnce
import Verif.Props.Mnemonic
import Verif.Props.Package
import Verif.Props.Keystream
import Verif.Props.Profile
import Verif.Props.Random
import Verif.Props.ConfigMap
import Verif.Props.SaltSequential
import Verif.Props.Pool
import Verif.Props.Spawn
import Verif.Props.AsyncDb
import Verif.Props.AsyncDbEnds
import Verif.Props.AsyncMetatag
import Verif.Props.DatabaseSaveErrors
import Verif.Props.Ignore
import Verif.Props.Views
import Verif.Props.Gens
import Verif.Props.Daemon
import Verif.Props.Files
import Verif.Props.StreamShared
import Verif.Props.UnstreamShared
import Verif.Props.PermPrimes
import Verif.Props.Ed25519
import Verif.Props.KeyShared
import Verif.Props.ExchangeShared
import Verif.Props.DatabaseCrash
import Verif.Props.DatabaseDelete
import Verif.Props.IdConfigs
import Verif.Props.Json
import Verif.Props.DatabaseManifest
import Verif.Props.AsyncCancel
import Verif.Props.DatabaseShared
import Verif.Props.EventLoop
import Verif.Props.Refusals
import Verif.Model.SaltCrash
import Verif.Props.SaltCrash
import Verif.Model.Domains
import Verif.Props.Domains
import Verif.Model.Deniable
import Verif.Props.Deniable
import Verif.Model.StreamCancel
import Verif.Lemmas.StreamCancel
import Verif.Props.StreamCancel
import Verif.Lemmas.Oracle
import Verif.Spec.RandomHash
import Verif.Lemmas.Digest
import Verif.Lemmas.Secrecy
import Verif.Lemmas.SecrecyGame
import Verif.Lemmas.SecrecyModel
import Verif.Lemmas.SecrecyPermute
import Verif.Lemmas.SecrecyDual
import Verif.Props.Secrecy
import Verif.Spec.Forgery
import Verif.Lemmas.Forgery
import Verif.Props.Forgery
import Verif.Spec.StreamForgery
import Verif.Lemmas.StreamForgery
import Verif.Props.StreamForgery
import Verif.Spec.StreamSecrecy
import Verif.Lemmas.OracleMean
import Verif.Lemmas.StreamSecrecy
import Verif.Lemmas.StreamSecrecyAgain
import Verif.Lemmas.StreamSecrecyRun
import Verif.Props.StreamSecrecy
import Verif.Spec.ChosenCiphertext
import Verif.Lemmas.ChosenCiphertext
import Verif.Props.ChosenCiphertext
import Verif.Spec.DatabaseRest
import Verif.Lemmas.Requests
import Verif.Lemmas.DatabaseSim
import Verif.Lemmas.DatabaseGhost
import Verif.Lemmas.DatabaseFair
import Verif.Lemmas.DatabaseRest
import Verif.Lemmas.DatabaseNames
import Verif.Props.DatabaseRest
import Verif.Spec.Misuse
import Verif.Lemmas.Misuse
import Verif.Lemmas.MisuseDual
import Verif.Lemmas.MisuseReuse
import Verif.Lemmas.MisusePermute
import Verif.Props.Misuse
import Verif.Spec.Context
import Verif.Lemmas.Context
import Verif.Props.Context
import Verif.Model.CipherShared
import Verif.Lemmas.CipherShared
import Verif.Lemmas.CipherCalls
import Verif.Props.CipherShared
import Verif.Spec.DatabaseTamper
import Verif.Lemmas.ForgeryProg
import Verif.Lemmas.DatabaseTamper
import Verif.Props.DatabaseTamper
import Verif.Spec.DatabaseAttack
import Verif.Lemmas.DatabaseAttack
import Verif.Lemmas.DatabaseAttackCount
import Verif.Lemmas.DatabaseOrigin
import Verif.Props.DatabaseAttack
import Verif.Lemmas.DatabaseKeys
import Verif.Props.DatabaseAttackChance
import Verif.Model.KdfUse
import Verif.Spec.KdfUse
import Verif.Props.KdfUse
import Verif.Spec.KdfSecrecy
import Verif.Lemmas.OracleKey
import Verif.Lemmas.KdfSecrecy
import Verif.Props.KdfSecrecy
import Verif.Spec.TokenForgery
import Verif.Props.TokenForgery
import Verif.Spec.RandomBytes
import Verif.Lemmas.RandomBytes
import Verif.Props.RandomBytes
import Verif.Model.DatabaseWith
import Verif.Props.DatabaseWith
import Verif.Spec.PacketForgery
import Verif.Lemmas.PacketForgery
import Verif.Props.PacketForgery
import Verif.Spec.PasscryptGuess
import Verif.Lemmas.PasscryptGuess
import Verif.Props.PasscryptGuess
import Verif.Lemmas.OracleGuess
import Verif.Lemmas.PasscryptFind
import Verif.Props.PasscryptFind
import Verif.Lemmas.PasscryptCost
import Verif.Props.PasscryptCost
import Verif.Model.ChainShared
import Verif.Spec.ChainShared
import Verif.Lemmas.ChainShared
import Verif.Props.ChainShared
import Verif.Model.GuidShared
import Verif.Spec.GuidShared
import Verif.Props.GuidShared
import Verif.Model.BundleShared
import Verif.Spec.BundleShared
import Verif.Props.BundleShared
import Verif.Model.Signer
import Verif.Props.Signer
import Verif.Model.Registry
import Verif.Props.Registry
import Verif.Model.Packaging
import Verif.Props.Packaging
import Verif.Props.PasscryptConfig
import Verif.Model.Metadata
import Verif.Props.Metadata
import Verif.Props.MetadataUse
import Verif.Model.KdfTable
import Verif.Props.KdfTable
import Verif.Props.CipherConfigUse
import Verif.Props.StreamTimestamp
import Verif.Model.Debug
import Verif.Props.Debug
import Verif.Model.GuidSets
import Verif.Props.GuidSets
import Verif.Model.Messages
import Verif.Props.Messages
import Verif.Model.PasscryptErrors
import Verif.Props.PasscryptErrors
