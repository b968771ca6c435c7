import Verif.Lemmas.Aes
import Verif.Lemmas.Base64
import Verif.Lemmas.Basic
import Verif.Lemmas.Cbor
import Verif.Lemmas.CborRead
import Verif.Lemmas.Fields
import Verif.Lemmas.Form
import Verif.Lemmas.FormB
import Verif.Lemmas.Gcm
import Verif.Lemmas.JsonPretty
import Verif.Lemmas.JsonRaw
import Verif.Lemmas.JsonRead
import Verif.Lemmas.JsonText
import Verif.Lemmas.JsonWf
import Verif.Lemmas.Lossy
import Verif.Lemmas.NoPanic
import Verif.Lemmas.P256
import Verif.Lemmas.Pocklington
import Verif.Lemmas.Sha256
import Verif.Lemmas.Url
import Verif.Lemmas.UrlAddr
import Verif.Lemmas.UrlHost
import Verif.Lemmas.UrlJoin
import Verif.Lemmas.UrlPath
import Verif.Lemmas.UrlRead
import Verif.Lemmas.UrlText
import Verif.Lemmas.Utf8
import Verif.Lemmas.Uuid
import Verif.Model.Aes
import Verif.Model.AnyStore
import Verif.Model.AuthRequest
import Verif.Model.Base64
import Verif.Model.Basic
import Verif.Model.Cli
import Verif.Model.CliHttp
import Verif.Model.CliTasks
import Verif.Model.Dcql
import Verif.Model.EcdhEs
import Verif.Model.Example
import Verif.Model.Form
import Verif.Model.Format
import Verif.Model.Gcm
import Verif.Model.HolderKey
import Verif.Model.HttpClient
import Verif.Model.Iso
import Verif.Model.Json
import Verif.Model.JsonPretty
import Verif.Model.JsonText
import Verif.Model.Jwe
import Verif.Model.JweBuilder
import Verif.Model.Nonce
import Verif.Model.Object
import Verif.Model.P256
import Verif.Model.P256Verifier
import Verif.Model.Params
import Verif.Model.Response
import Verif.Model.Session
import Verif.Model.Sha256
import Verif.Model.StatusJson
import Verif.Model.TestExchange
import Verif.Model.Url
import Verif.Model.UrlJoin
import Verif.Model.UrlText
import Verif.Model.Utf8
import Verif.Model.Verification
import Verif.Model.VerifierApp
import Verif.Model.VerifierHttp
import Verif.Model.VerifierMain
import Verif.Model.VerifierTasks
import Verif.Model.WalletApp
import Verif.Model.WalletMain
import Verif.Props.Aes
import Verif.Props.Amid
import Verif.Props.AnyStore
import Verif.Props.Authentic
import Verif.Props.Beside
import Verif.Props.Bound
import Verif.Props.BoundKey
import Verif.Props.Build
import Verif.Props.Builder
import Verif.Props.BundledSigner
import Verif.Props.CacheFile
import Verif.Props.CertCache
import Verif.Props.ClaimFormat
import Verif.Props.Cli
import Verif.Props.CliFlow
import Verif.Props.CliHttp
import Verif.Props.CliTasks
import Verif.Props.Codec
import Verif.Props.CredentialSets
import Verif.Props.Dcql
import Verif.Props.DcqlEdit
import Verif.Props.Decision
import Verif.Props.DecisionInputs
import Verif.Props.Delivery
import Verif.Props.Disclosure
import Verif.Props.EcdhEs
import Verif.Props.EndToEnd
import Verif.Props.Endpoint
import Verif.Props.EndpointAnswer
import Verif.Props.EndpointRequest
import Verif.Props.Example
import Verif.Props.ExampleFlow
import Verif.Props.Fits
import Verif.Props.FormText
import Verif.Props.Formats
import Verif.Props.Gcm
import Verif.Props.HolderKey
import Verif.Props.Holdings
import Verif.Props.HttpClient
import Verif.Props.Iso
import Verif.Props.IsoLayout
import Verif.Props.JsonGrammar
import Verif.Props.JsonOrder
import Verif.Props.Jwe
import Verif.Props.JweBuilder
import Verif.Props.MetadataHistory
import Verif.Props.Monotone
import Verif.Props.Moved
import Verif.Props.NoPanic
import Verif.Props.Nonce
import Verif.Props.Object
import Verif.Props.Observer
import Verif.Props.P256Verifier
import Verif.Props.Params
import Verif.Props.Passing
import Verif.Props.Progress
import Verif.Props.PutBack
import Verif.Props.ReadParams
import Verif.Props.RedirectRule
import Verif.Props.Relay
import Verif.Props.RepoTests
import Verif.Props.RequestInputs
import Verif.Props.RequestObject
import Verif.Props.RequestUrl
import Verif.Props.Response
import Verif.Props.Routes
import Verif.Props.Serial
import Verif.Props.Session
import Verif.Props.SessionReads
import Verif.Props.SessionStatus
import Verif.Props.Sha256
import Verif.Props.Shipped
import Verif.Props.Shown
import Verif.Props.Signed
import Verif.Props.StatusJson
import Verif.Props.TestExchange
import Verif.Props.Thumbprint
import Verif.Props.UrlJoin
import Verif.Props.UrlText
import Verif.Props.Validate
import Verif.Props.VerifierHttp
import Verif.Props.VerifierKept
import Verif.Props.VerifierMain
import Verif.Props.VerifierTasks
import Verif.Props.Verify
import Verif.Props.Vocabulary
import Verif.Props.WalletApp
import Verif.Props.WalletDocs
import Verif.Props.WalletMain
import Verif.Props.WalletStore
import Verif.Spec.Aes
import Verif.Spec.Amid
import Verif.Spec.AnyStore
import Verif.Spec.Authentic
import Verif.Spec.Beside
import Verif.Spec.Bound
import Verif.Spec.BoundKey
import Verif.Spec.Build
import Verif.Spec.Builder
import Verif.Spec.CacheFile
import Verif.Spec.CborRead
import Verif.Spec.CertCache
import Verif.Spec.ClaimFormat
import Verif.Spec.Cli
import Verif.Spec.CliFlow
import Verif.Spec.CliHttp
import Verif.Spec.CliTasks
import Verif.Spec.Codec
import Verif.Spec.CredentialSets
import Verif.Spec.Dcql
import Verif.Spec.DcqlEdit
import Verif.Spec.Decision
import Verif.Spec.Delivery
import Verif.Spec.Disclosure
import Verif.Spec.EcdhEs
import Verif.Spec.EndToEnd
import Verif.Spec.EndpointAnswer
import Verif.Spec.Example
import Verif.Spec.ExampleFlow
import Verif.Spec.Fits
import Verif.Spec.Format
import Verif.Spec.Gcm
import Verif.Spec.HolderKey
import Verif.Spec.Holdings
import Verif.Spec.HttpClient
import Verif.Spec.Iso
import Verif.Spec.JsonRaw
import Verif.Spec.JsonText
import Verif.Spec.Jwe
import Verif.Spec.JweBuilder
import Verif.Spec.MetadataHistory
import Verif.Spec.Monotone
import Verif.Spec.Nonce
import Verif.Spec.Object
import Verif.Spec.Observer
import Verif.Spec.P256
import Verif.Spec.Panic
import Verif.Spec.Params
import Verif.Spec.PutBack
import Verif.Spec.RedirectRule
import Verif.Spec.Relay
import Verif.Spec.Request
import Verif.Spec.RequestInputs
import Verif.Spec.RequestUrl
import Verif.Spec.Response
import Verif.Spec.Routes
import Verif.Spec.Serial
import Verif.Spec.Session
import Verif.Spec.Sha256
import Verif.Spec.Shipped
import Verif.Spec.Shown
import Verif.Spec.Signed
import Verif.Spec.StatusJson
import Verif.Spec.TestExchange
import Verif.Spec.Url
import Verif.Spec.UrlJoin
import Verif.Spec.Uuid
import Verif.Spec.Validate
import Verif.Spec.VerifierHttp
import Verif.Spec.VerifierMain
import Verif.Spec.VerifierTasks
import Verif.Spec.Verify
import Verif.Spec.Vocabulary
import Verif.Spec.WalletApp
import Verif.Spec.WalletMain
import Verif.Spec.WalletStore
