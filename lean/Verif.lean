import Verif.Props.Encoding
import Verif.Props.Siv
import Verif.Props.ChaCha
import Verif.Props.Aead
import Verif.Props.Hmac
import Verif.Props.Michael
import Verif.Props.MichaelWeak
import Verif.Props.Tkip
import Verif.Props.Arith
import Verif.Props.GaloisField
import Verif.Props.Ecc
import Verif.Props.Ladder
import Verif.Props.Orbits
import Verif.Props.Walsh
import Verif.Props.Sbox
import Verif.Props.PrimeTable
import Verif.Props.Pi
import Verif.Props.Curves
import Verif.Props.Scalar
import Verif.Props.Primes
import Verif.Props.Montgomery
import Verif.Props.Edwards
import Verif.Props.EdwardsCurves
import Verif.Props.X25519
import Verif.Props.Ladder2
import Verif.Props.LowOrder
import Verif.Props.Invalid
import Verif.Props.ZeroOutput
import Verif.Props.HmacKeys
import Verif.Props.CmacTags
import Verif.Props.Brainpool
import Verif.Props.NonLinear
import Verif.Props.TkipReuse
import Verif.Props.NonceReuse
import Verif.Props.PolyOnce
import Verif.Props.PolyHeap
import Verif.Props.S2vTags
import Verif.Props.CurveList
import Verif.Props.Text
import Verif.Props.KeyCount
import Verif.Props.SivStream
import Verif.Props.TextLength
import Verif.Props.NistSeeds
import Verif.Props.PiSeeds
import Verif.Props.BrainpoolSeeds
import Verif.Props.SboxTables
import Verif.Props.GostCurves
import Verif.Props.SharedCoord
import Verif.Props.Trace
import Verif.Props.Bent
import Verif.Props.IsPrime
import Verif.Props.UnitGroup
import Verif.Props.CompositeRoot
import Verif.Props.AesCmac
import Verif.Vectors.Siv
import Verif.Vectors.Hash
import Verif.Vectors.Ecc
import Verif.Props.HmacMessages
import Verif.Props.HmacSha1
import Verif.Props.TestCount
import Verif.Props.TextOrder
import Verif.Props.SivKeys
import Verif.Props.SelfTest
import Verif.Props.PrimeTest
import Verif.Props.Scripts
import Verif.Props.Liar
import Verif.Props.FieldPower
import Verif.Props.NumberHelpers
import Verif.Props.AnalysisScripts
import Verif.Props.TkipLeak
import Verif.Props.CmacForgery
import Verif.Props.DblField
import Verif.Props.SivForgery
import Verif.Props.SivHeaders
import Verif.Props.SivPrivacy
import Verif.Props.Permutations
import Verif.Props.AeadSecurity
import Verif.Props.KeyWork
import Verif.Props.HmacRandom
import Verif.Props.DerivedKeys
import Verif.Props.Dictionary
import Verif.Props.Limits
import Verif.Props.RandomNonce
import Verif.Props.SivFailures
import Verif.Props.Rounds
import Verif.Props.Calls
import Verif.Props.Generic
import Verif.Props.ChaChaCalls
import Verif.Props.PolyReach
import Verif.Props.SelfReduce
import Verif.Props.ChaChaCore
import Verif.Props.TwoKeys
import Verif.Props.ChaChaRounds
import Verif.Props.RoundsAead
import Verif.Props.ChaChaSharp
import Verif.Props.ChaChaMany
import Verif.Props.AeadMany
import Verif.Props.RoundsAeadMany
import Verif.Props.Salt
import Verif.Props.CmacBirthday
import Verif.Props.SivBirthday
import Verif.Props.Reuse
import Verif.Props.Users
import Verif.Props.PolySharp
import Verif.Props.SivBlocks
import Verif.Props.AeadSharp
import Verif.Props.HmacSearch
