import Verif.Py.Dict
import Verif.Py.Str
import Verif.Py.Val
import Verif.Py.Utf8
import Verif.Py.Url
import Verif.Py.UrlLemmas
import Verif.Py.Json
import Verif.Py.JsonLemmas
import Verif.Model.Message
import Verif.Props.C01_C05
import Verif.Props.Encoding
import Verif.Model.Merge
import Verif.Model.Deser
import Verif.Model.Schemas
import Verif.Props.Mapping
import Verif.Props.RoundTrip
import Verif.Py.Calendar
import Verif.Model.Jwt
import Verif.Model.Oidc
import Verif.Model.VerifyState
import Verif.Props.Tokens
import Verif.Props.IdTokens
import Verif.Props.Requests
import Verif.Props.Logout
import Verif.Props.Registration
import Verif.Py.Time
import Verif.Py.TimeLemmas
import Verif.Model.TimeUtil
import Verif.Props.Time
import Verif.Model.IdentityAssurance
import Verif.Props.IdentityAssurance
import Verif.Model.FileStore
import Verif.Props.StoreNames
import Verif.Props.FileStore
import Verif.Props.StoreReopen
import Verif.Props.StoreClear
import Verif.Props.StoreShared
import Verif.Model.Concurrent
import Verif.Props.Concurrent
import Verif.Model.Config
import Verif.Props.Config
import Verif.Props.BasePath
import Verif.Model.Heap
import Verif.Props.Heap
import Verif.Model.SqlStore
import Verif.Props.SqlStore
import Verif.Model.Labeled
import Verif.Props.LabeledDict
import Verif.Props.Labeled
import Verif.Props.LabeledStores
import Verif.Props.Nested
import Verif.Props.OneOf
import Verif.Model.JwtOut
import Verif.Props.JwtRoundTrip
import Verif.Props.AuthzResponse
import Verif.Props.NestedRoundTrip
import Verif.Model.IsoTime
import Verif.Model.FileTree
import Verif.Props.IsoBasics
import Verif.Props.IsoTime
import Verif.Props.ReadWrite
import Verif.Model.Factory
import Verif.Props.Factory
import Verif.Model.Context
import Verif.Model.ContextKeys
import Verif.Props.Context
import Verif.Py.JsonFuel
import Verif.Props.ConcProgress
import Verif.Model.ConcKeys
import Verif.Props.ConcKeys
import Verif.Props.RequestObject
import Verif.Props.FormIn
import Verif.Props.NestedForm
import Verif.Props.ListParams
import Verif.Props.StoreUnreadable
import Verif.Props.VerifyState
import Verif.Props.ClaimsRequest
import Verif.Props.Required
import Verif.Props.HeapCopy
import Verif.Props.SqlShared
import Verif.Props.TokenRoles
import Verif.Props.Authentic
import Verif.Props.ContextKeys
import Verif.Props.Repeat
import Verif.Props.HonestFlow
import Verif.Props.FormText
import Verif.Props.Percent
import Verif.Props.Standards
import Verif.Props.StoreIsolation
import Verif.Props.Floats
import Verif.Props.Vocabulary
import Verif.Props.TimeStamps
import Verif.Props.Shortest
import Verif.Props.Unknown
import Verif.Props.ListedForms
import Verif.Props.Refusals
import Verif.Props.RefusedTokens
import Verif.Props.Constructed
import Verif.Props.Verdict
import Verif.Props.LangTag
import Verif.Props.HalfRead
import Verif.Props.RefusedLogout
import Verif.Props.RefusedRequests
import Verif.Props.RefusedForms
import Verif.Props.Wire
import Verif.Props.Arguments
import Verif.Props.Shown
import Verif.Props.ClientKeys
import Verif.Props.Presence
import Verif.Props.ContextStores
import Verif.Props.VerdictOwn
import Verif.Props.JsonIndent
import Verif.Props.SqlList
import Verif.Props.Sessions
import Verif.Props.JsonBytes
import Verif.Props.Logouts
import Verif.Props.Order
import Verif.Props.JsonPlain
import Verif.Props.Encrypted
import Verif.Props.ErrorMessage
import Verif.Props.Milder
import Verif.Props.EqualVerdict
import Verif.Props.Optional
import Verif.Props.Derived
import Verif.Props.Confirmed
import Verif.Props.PassedOn
import Verif.Props.Written
import Verif.Props.Refused
import Verif.Props.Clock
import Verif.Props.DurationOrder
import Verif.Props.FormOrJson
import Verif.Model.MappingMore
import Verif.Model.AnyValue
import Verif.Props.MappingMore
import Verif.Props.AnyValue
import Verif.Model.Lax
import Verif.Props.Lax
import Verif.Props.Closest
import Verif.Props.TimeTexts
import Verif.Props.IsoTexts
import Verif.Props.FileTree
import Verif.Props.ContextMessages
import Verif.Props.ExactAcceptance
import Verif.Props.Reasons
import Verif.Props.ReasonsEmbedded
import Verif.Props.Nulls
import Verif.Props.ExactResponses
import Verif.Props.ExactRequests
import Verif.Props.ExactTokens
import Verif.Props.ExactReading
import Verif.Props.ExactForms
import Verif.Props.ExactDurations
import Verif.Props.ExactWriting
import Verif.Props.ExactFormsOut
