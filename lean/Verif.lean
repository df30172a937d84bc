import Verif.Props.Bio
import Verif.Props.Proof
import Verif.Props.Header
import Verif.Props.Chain
import Verif.Props.Timedata
import Verif.Props.Store
import Verif.Props.Base32
import Verif.Props.Addr
import Verif.Props.Addrman
import Verif.Props.Msg
import Verif.Props.Sig0
import Verif.Props.Tld
import Verif.Props.DnsName
import Verif.Props.Dns
import Verif.Props.Label
import Verif.Props.Req
import Verif.Props.Dnssec
import Verif.Props.Resource
import Verif.Props.Cache
import Verif.Props.Ns
import Verif.Props.HMap
import Verif.Props.Framing
import Verif.Props.PeerList
import Verif.Props.Pool
import Verif.Props.PoolSafe
import Verif.Props.Brontide
import Verif.Props.RsWorker
import Verif.Props.Rs
import Verif.Props.Sha256
import Verif.Props.Aead
import Verif.Props.Blake2b
import Verif.Props.Sha3
import Verif.Props.BlockHash
import Verif.Props.Networks
import Verif.Props.Ecc
import Verif.Props.Anchor
import Verif.Props.Elligator
import Verif.Props.Ec
import Verif.Props.Ecdsa
import Verif.Props.SecpHash
import Verif.Props.Field52
import Verif.Props.Ec52
import Verif.Props.Options
import Verif.Props.Seeds
import Verif.Props.Daemon
import Verif.Props.Scalar64
import Verif.Props.Group52
import Verif.Props.EcmultConst
import Verif.Props.EcmultGen
import Verif.Props.EcdsaWords
import Verif.Props.Ecmult
import Verif.Props.EcRecover
import Verif.Props.Siphash
import Verif.Props.Calendar
import Verif.Props.Stub
import Verif.Props.Random
import Verif.Props.BnMore
import Verif.Props.KeyedHash
import Verif.Props.RrList
import Verif.Props.Sanitize
import Verif.Props.BnText
import Verif.Props.StorePath
