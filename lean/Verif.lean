import Verif.Model.Admin
import Verif.Model.AdminLocks
import Verif.Model.BigInt
import Verif.Model.Bytes
import Verif.Model.Client
import Verif.Model.ClientConc
import Verif.Model.ClientJs
import Verif.Model.ClientLocks
import Verif.Model.Codecs
import Verif.Model.Config
import Verif.Model.Crypto
import Verif.Model.Dump
import Verif.Model.EnvFile
import Verif.Model.FilAddress
import Verif.Model.Gateway
import Verif.Model.GatewayAdmin
import Verif.Model.GatewayConc
import Verif.Model.GatewayLife
import Verif.Model.Go
import Verif.Model.Http
import Verif.Model.HttpWait
import Verif.Model.Identity
import Verif.Model.Ids
import Verif.Model.JsDiscovery
import Verif.Model.JsMerkle
import Verif.Model.JsOffer
import Verif.Model.JsPayment
import Verif.Model.JsSigning
import Verif.Model.Json
import Verif.Model.JsonText
import Verif.Model.KeyId
import Verif.Model.LazyInit
import Verif.Model.Logging
import Verif.Model.Maps
import Verif.Model.Merkle
import Verif.Model.Message
import Verif.Model.NearMany
import Verif.Model.Offer
import Verif.Model.OfferConc
import Verif.Model.OfferMgr
import Verif.Model.P2P
import Verif.Model.PayLives
import Verif.Model.PayLocks
import Verif.Model.PayNonce
import Verif.Model.Payment
import Verif.Model.Pool
import Verif.Model.PoolWait
import Verif.Model.Prng
import Verif.Model.Provider
import Verif.Model.ProviderLocks
import Verif.Model.ProviderMain
import Verif.Model.ProviderRecords
import Verif.Model.ProviderRestart
import Verif.Model.RWLock
import Verif.Model.RegLocks
import Verif.Model.RegMgr
import Verif.Model.RegNear
import Verif.Model.RegRefresh
import Verif.Model.Register
import Verif.Model.Reputation
import Verif.Model.Restart
import Verif.Model.Ring
import Verif.Model.RingListed
import Verif.Model.RingShared
import Verif.Model.Settings
import Verif.Model.SharedDisk
import Verif.Model.SqlConc
import Verif.Model.SqlConn
import Verif.Model.SqlOffer
import Verif.Model.Startup
import Verif.Model.Tcp
import Verif.Model.VoucherTerms
import Verif.Model.Wire
import Verif.Spec.Admin
import Verif.Spec.AdminLocks
import Verif.Spec.AdminProvider
import Verif.Spec.BigInt
import Verif.Spec.Client
import Verif.Spec.ClientAck
import Verif.Spec.ClientConc
import Verif.Spec.ClientCrash
import Verif.Spec.ClientGateway
import Verif.Spec.ClientJs
import Verif.Spec.ClientLocks
import Verif.Spec.ClientSpend
import Verif.Spec.Codecs
import Verif.Spec.Config
import Verif.Spec.Crypto
import Verif.Spec.Dump
import Verif.Spec.Duration
import Verif.Spec.EnvFile
import Verif.Spec.FilAddress
import Verif.Spec.Gateway
import Verif.Spec.GatewayAnswer
import Verif.Spec.GatewayConc
import Verif.Spec.GatewayLife
import Verif.Spec.GatewayPeers
import Verif.Spec.GatewayPromise
import Verif.Spec.GatewayStore
import Verif.Spec.HttpWait
import Verif.Spec.Identity
import Verif.Spec.Ids
import Verif.Spec.Journey
import Verif.Spec.JsMerkle
import Verif.Spec.JsOffers
import Verif.Spec.JsPayment
import Verif.Spec.JsonGrammar
import Verif.Spec.Listing
import Verif.Spec.Logging
import Verif.Spec.Members
import Verif.Spec.Merkle
import Verif.Spec.Message
import Verif.Spec.Names
import Verif.Spec.NearMany
import Verif.Spec.Offer
import Verif.Spec.OfferConc
import Verif.Spec.OfferMgr
import Verif.Spec.P2P
import Verif.Spec.PaidJourney
import Verif.Spec.PaidStory
import Verif.Spec.PayLives
import Verif.Spec.PayLocks
import Verif.Spec.PayNonce
import Verif.Spec.Payment
import Verif.Spec.PoolWait
import Verif.Spec.Prng
import Verif.Spec.Provider
import Verif.Spec.ProviderAnswer
import Verif.Spec.ProviderLocks
import Verif.Spec.ProviderRecords
import Verif.Spec.RWLock
import Verif.Spec.RegMgr
import Verif.Spec.RegMgrArc
import Verif.Spec.RegRefresh
import Verif.Spec.Register
import Verif.Spec.Reputation
import Verif.Spec.Restart
import Verif.Spec.RestartClient
import Verif.Spec.Ring
import Verif.Spec.RingListed
import Verif.Spec.RingShared
import Verif.Spec.Settings
import Verif.Spec.SqlConc
import Verif.Spec.SqlConn
import Verif.Spec.SqlOffer
import Verif.Spec.Startup
import Verif.Spec.Tcp
import Verif.Spec.VoucherTerms
import Verif.Spec.WireFormat
import Verif.Lemmas.Admin
import Verif.Lemmas.AdminExamples
import Verif.Lemmas.AdminProvider
import Verif.Lemmas.BigInt
import Verif.Lemmas.Bytes
import Verif.Lemmas.Client
import Verif.Lemmas.ClientCalm
import Verif.Lemmas.ClientDiscover
import Verif.Lemmas.ClientExamples
import Verif.Lemmas.ClientGateway
import Verif.Lemmas.ClientGateways
import Verif.Lemmas.ClientJs
import Verif.Lemmas.Config
import Verif.Lemmas.Dump
import Verif.Lemmas.Duration
import Verif.Lemmas.EnvFile
import Verif.Lemmas.Gateway
import Verif.Lemmas.GatewayConc
import Verif.Lemmas.GatewayConcAlone
import Verif.Lemmas.GatewayConcRace
import Verif.Lemmas.GatewayConcRun
import Verif.Lemmas.GatewayExamples
import Verif.Lemmas.GatewayPublish
import Verif.Lemmas.GatewayReplay
import Verif.Lemmas.GatewaySigned
import Verif.Lemmas.GoMember
import Verif.Lemmas.HttpWait
import Verif.Lemmas.Identity
import Verif.Lemmas.Ids
import Verif.Lemmas.Journey
import Verif.Lemmas.JsMerkle
import Verif.Lemmas.JsPayment
import Verif.Lemmas.JsonText
import Verif.Lemmas.LazyInit
import Verif.Lemmas.Listing
import Verif.Lemmas.Maps
import Verif.Lemmas.Merkle
import Verif.Lemmas.OfferConc
import Verif.Lemmas.OfferMgr
import Verif.Lemmas.OfferMgrHist
import Verif.Lemmas.OfferMgrRing
import Verif.Lemmas.OfferMgrRun
import Verif.Lemmas.OfferMgrSim
import Verif.Lemmas.PaidJourney
import Verif.Lemmas.Payment
import Verif.Lemmas.PaymentConc
import Verif.Lemmas.PaymentFresh
import Verif.Lemmas.PaymentProps
import Verif.Lemmas.PaymentRecv
import Verif.Lemmas.Pool
import Verif.Lemmas.PoolWait
import Verif.Lemmas.Prng
import Verif.Lemmas.ProofSize
import Verif.Lemmas.Provider
import Verif.Lemmas.ProviderAcks
import Verif.Lemmas.ProviderExamples
import Verif.Lemmas.ProviderInv
import Verif.Lemmas.ProviderList
import Verif.Lemmas.ProviderReach
import Verif.Lemmas.ProviderRecords
import Verif.Lemmas.ProviderRefs
import Verif.Lemmas.ProviderRun
import Verif.Lemmas.ProviderStore
import Verif.Lemmas.RWHeld
import Verif.Lemmas.RWLock
import Verif.Lemmas.RWPark
import Verif.Lemmas.RWRest
import Verif.Lemmas.RegMgr
import Verif.Lemmas.RegRefresh
import Verif.Lemmas.RingBasic
import Verif.Lemmas.RingClosest
import Verif.Lemmas.RingDamaged
import Verif.Lemmas.RingInsert
import Verif.Lemmas.RingMany
import Verif.Lemmas.RingProps
import Verif.Lemmas.RingQuery
import Verif.Lemmas.RingRange
import Verif.Lemmas.RingRemove
import Verif.Lemmas.RingShared
import Verif.Lemmas.RingSmallest
import Verif.Lemmas.RingWalk
import Verif.Lemmas.RingWindow
import Verif.Lemmas.SqlConc
import Verif.Lemmas.SqlConcRun
import Verif.Lemmas.SqlCut
import Verif.Lemmas.SqlOffer
import Verif.Lemmas.Tcp
import Verif.Lemmas.Utf8
import Verif.Lemmas.Wire
import Verif.Props.AdminCalls
import Verif.Props.AdminGateway
import Verif.Props.AdminLocks
import Verif.Props.AdminProvider
import Verif.Props.AdminTrust
import Verif.Props.BigInt
import Verif.Props.ClientAck
import Verif.Props.ClientConc
import Verif.Props.ClientCrash
import Verif.Props.ClientDiscover
import Verif.Props.ClientGateways
import Verif.Props.ClientJs
import Verif.Props.ClientLocks
import Verif.Props.ClientLost
import Verif.Props.ClientReturn
import Verif.Props.ClientSpend
import Verif.Props.ClientSuccess
import Verif.Props.Codecs
import Verif.Props.CodecsAll
import Verif.Props.Config
import Verif.Props.ConfigForeign
import Verif.Props.ConfigSeparator
import Verif.Props.Crypto
import Verif.Props.Dump
import Verif.Props.Duration
import Verif.Props.EnvFile
import Verif.Props.FilAddress
import Verif.Props.FilNumbers
import Verif.Props.Gateway
import Verif.Props.GatewayAnswer
import Verif.Props.GatewayConc
import Verif.Props.GatewayCrash
import Verif.Props.GatewayFresh
import Verif.Props.GatewayFunds
import Verif.Props.GatewayLife
import Verif.Props.GatewayPeers
import Verif.Props.GatewayPromise
import Verif.Props.GatewayPublish
import Verif.Props.GatewayRelay
import Verif.Props.GatewayStore
import Verif.Props.Http
import Verif.Props.HttpWait
import Verif.Props.Identity
import Verif.Props.Ids
import Verif.Props.Journey
import Verif.Props.JsAsks
import Verif.Props.JsCost
import Verif.Props.JsDiscovery
import Verif.Props.JsMerkle
import Verif.Props.JsOffer
import Verif.Props.JsOffers
import Verif.Props.JsPayment
import Verif.Props.JsSigning
import Verif.Props.JsVersions
import Verif.Props.JsonGrammar
import Verif.Props.KeyId
import Verif.Props.LazyInit
import Verif.Props.Listing
import Verif.Props.Logging
import Verif.Props.Merkle
import Verif.Props.Message
import Verif.Props.Names
import Verif.Props.NearMany
import Verif.Props.NodePeers
import Verif.Props.Offer
import Verif.Props.OfferConc
import Verif.Props.OfferConcFound
import Verif.Props.OfferMgr
import Verif.Props.P2P
import Verif.Props.P2POnce
import Verif.Props.PaidJourney
import Verif.Props.PaidStory
import Verif.Props.PayLives
import Verif.Props.PayLocks
import Verif.Props.PayNonce
import Verif.Props.Payment
import Verif.Props.Pool
import Verif.Props.PoolWait
import Verif.Props.Prng
import Verif.Props.PrngKeys
import Verif.Props.Provider
import Verif.Props.ProviderAnswer
import Verif.Props.ProviderCount
import Verif.Props.ProviderKey
import Verif.Props.ProviderLocks
import Verif.Props.ProviderLost
import Verif.Props.ProviderPublish
import Verif.Props.ProviderReach
import Verif.Props.ProviderRecords
import Verif.Props.ProviderRestart
import Verif.Props.RegLocks
import Verif.Props.RegMgr
import Verif.Props.RegMgrArc
import Verif.Props.RegMgrMore
import Verif.Props.RegNear
import Verif.Props.RegRefresh
import Verif.Props.Register
import Verif.Props.RegisterPromise
import Verif.Props.Reputation
import Verif.Props.Restart
import Verif.Props.RestartClient
import Verif.Props.Ring
import Verif.Props.RingListed
import Verif.Props.RingMany
import Verif.Props.RingRanges
import Verif.Props.RingShared
import Verif.Props.Settings
import Verif.Props.SharedDisk
import Verif.Props.SqlConc
import Verif.Props.SqlConn
import Verif.Props.SqlOffer
import Verif.Props.Startup
import Verif.Props.Tcp
import Verif.Props.VoucherTerms
import Verif.Props.WireFormat
