import Verif.Model.Kem
import Verif.Props.Reduce
import Verif.Props.Verify
import Verif.Props.Ntt
import Verif.Props.Encode
import Verif.Props.Cbd
import Verif.Props.Keccak
import Verif.Props.Sample
import Verif.Props.Kem
import Verif.Props.Randombytes
import Verif.Props.Leak
import Verif.Props.AvxPoly
import Verif.Props.AvxPack
import Verif.Props.AvxKeccak
import Verif.Props.AvxSample
import Verif.Props.AvxKem
import Verif.Props.AvxRandom
import Verif.Props.AvxLeak
import Verif.Props.Pke
import Verif.Props.Uniform
import Verif.Props.Failure
import Verif.Props.Drbg
import Verif.Props.Evp
import Verif.Props.Programs
import Verif.Props.KatFiles
import Verif.Props.Speed
import Verif.Props.TestSpeed
import Verif.Props.AvxBmi
import Verif.Props.AvxDefined
import Verif.Props.Alias
import Verif.Props.AliasPke
import Verif.Props.AliasRnd
import Verif.Props.Anonymity
import Verif.Props.AnonymityCca
import Verif.Props.FailureUniform
import Verif.Props.Bind
import Verif.Props.Api
import Verif.Props.AvxBmiKem
import Verif.Props.InPlace
import Verif.Props.Security
import Verif.Props.InitNtt
import Verif.Props.KeccakApi
import Verif.Props.SecuritySeed
import Verif.Props.SecurityFull
import Verif.Props.KnownAnswer
import Verif.Props.EkString
import Verif.Props.KeyParts
import Verif.Props.Client
import Verif.Props.Probe
import Verif.Props.Malleable
import Verif.Props.Link
import Verif.Props.SecurityMulti
import Verif.Props.Compare
import Verif.Props.Script
import Verif.Props.Make
import Verif.Props.Separate
import Verif.Props.SecurityOne
