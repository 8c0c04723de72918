import Verif.Codec.Cbor
import Verif.Codec.CborLaws
import Verif.Codec.Der
import Verif.Codec.Json
import Verif.Codec.Ordinary
import Verif.Lemmas.Attest
import Verif.Lemmas.AttestOutcome
import Verif.Lemmas.AuthData
import Verif.Lemmas.Backend
import Verif.Lemmas.Base64
import Verif.Lemmas.Base64Text
import Verif.Lemmas.Basic
import Verif.Lemmas.BigEndian
import Verif.Lemmas.Credential
import Verif.Lemmas.Errors
import Verif.Lemmas.Exceptions
import Verif.Lemmas.Failure
import Verif.Lemmas.Flask
import Verif.Lemmas.FlaskAtomic
import Verif.Lemmas.FlaskFaults
import Verif.Lemmas.FlaskThreads
import Verif.Lemmas.Float
import Verif.Lemmas.Heap
import Verif.Lemmas.JsonText
import Verif.Lemmas.Jsonify
import Verif.Lemmas.KeyAttestation
import Verif.Lemmas.Keys
import Verif.Lemmas.Names
import Verif.Lemmas.Optimised
import Verif.Lemmas.Options
import Verif.Lemmas.Ordinary
import Verif.Lemmas.Origin
import Verif.Lemmas.Outcome
import Verif.Lemmas.OutcomeInput
import Verif.Lemmas.OutcomeOrigin
import Verif.Lemmas.OutcomeParse
import Verif.Lemmas.Page
import Verif.Lemmas.PageJson
import Verif.Lemmas.PageStatus
import Verif.Lemmas.Py
import Verif.Lemmas.Random
import Verif.Lemmas.RepairedJsonify
import Verif.Lemmas.TypesJson
import Verif.Lemmas.Wire
import Verif.Model.Accounts
import Verif.Model.Asn1
import Verif.Model.Attesters
import Verif.Model.AutoKeys
import Verif.Model.Backend
import Verif.Model.Base64
import Verif.Model.Binding
import Verif.Model.Choosy
import Verif.Model.Converters
import Verif.Model.Counterless
import Verif.Model.Discreet
import Verif.Model.Env
import Verif.Model.Expired
import Verif.Model.Flask
import Verif.Model.FlaskAtomic
import Verif.Model.FlaskFaults
import Verif.Model.FlaskOwned
import Verif.Model.FlaskRepaired
import Verif.Model.FlaskThreads
import Verif.Model.Guards
import Verif.Model.Heap
import Verif.Model.Initial
import Verif.Model.Interaction
import Verif.Model.Interface
import Verif.Model.Jsonify
import Verif.Model.KeyUse
import Verif.Model.Kills
import Verif.Model.Lifecycle
import Verif.Model.Locked
import Verif.Model.LockedBackend
import Verif.Model.OneRoute
import Verif.Model.Optimised
import Verif.Model.Options
import Verif.Model.Package
import Verif.Model.Page
import Verif.Model.PageFlow
import Verif.Model.Parsers
import Verif.Model.Py
import Verif.Model.Registrar
import Verif.Model.Repaired
import Verif.Model.RepairedAndroid
import Verif.Model.RepairedClient
import Verif.Model.RepairedExtensions
import Verif.Model.RepairedU2F
import Verif.Model.Restore
import Verif.Model.Retry
import Verif.Model.Revoke
import Verif.Model.SomeCredential
import Verif.Model.Swept
import Verif.Model.Together
import Verif.Model.Types
import Verif.Model.TypesObj
import Verif.Model.Url
import Verif.Model.Utils
import Verif.Model.Whole
import Verif.Props.Accounts
import Verif.Props.AccountsDemo
import Verif.Props.AccountsServed
import Verif.Props.AndroidDemo
import Verif.Props.AndroidStrict
import Verif.Props.Answer
import Verif.Props.AnswerDemo
import Verif.Props.Approval
import Verif.Props.Attest
import Verif.Props.AttestOutcome
import Verif.Props.AutoKeys
import Verif.Props.Base64
import Verif.Props.Binding
import Verif.Props.BindingDemo
import Verif.Props.BindingFlask
import Verif.Props.Books
import Verif.Props.BooksDemo
import Verif.Props.CaseInstances
import Verif.Props.Ceremony
import Verif.Props.CeremonyRaw
import Verif.Props.Checks
import Verif.Props.ChecksDemo
import Verif.Props.Choosy
import Verif.Props.Client
import Verif.Props.ClientText
import Verif.Props.Clock
import Verif.Props.ClockDemo
import Verif.Props.Contract
import Verif.Props.ContractDemo
import Verif.Props.ContractServes
import Verif.Props.Copies
import Verif.Props.CopiesDemo
import Verif.Props.CopiesReported
import Verif.Props.Counterless
import Verif.Props.CounterlessDemo
import Verif.Props.Demo
import Verif.Props.DemoRich
import Verif.Props.Discreet
import Verif.Props.Enumeration
import Verif.Props.ExchangeDemo
import Verif.Props.Expired
import Verif.Props.Extensions
import Verif.Props.ExtensionsCeremony
import Verif.Props.Failure
import Verif.Props.Flask
import Verif.Props.FlaskAtomic
import Verif.Props.FlaskAtomicDemo
import Verif.Props.FlaskDemo
import Verif.Props.FlaskFaults
import Verif.Props.FlaskFaultsDemo
import Verif.Props.FlaskHonest
import Verif.Props.FlaskOutcome
import Verif.Props.FlaskOutcomeDemo
import Verif.Props.FlaskOwned
import Verif.Props.FlaskRepaired
import Verif.Props.FlaskThreads
import Verif.Props.FlaskThreadsCounter
import Verif.Props.FlaskThreadsDemo
import Verif.Props.Granted
import Verif.Props.GrantedDemo
import Verif.Props.Guards
import Verif.Props.GuardsDemo
import Verif.Props.Heap
import Verif.Props.HeapLater
import Verif.Props.Honest
import Verif.Props.Initial
import Verif.Props.InitialDemo
import Verif.Props.InitialServes
import Verif.Props.Instances
import Verif.Props.Interaction
import Verif.Props.Isolation
import Verif.Props.IsolationDemo
import Verif.Props.Jsonify
import Verif.Props.KeyAttestation
import Verif.Props.KeyUse
import Verif.Props.Keys
import Verif.Props.Kills
import Verif.Props.KillsDemo
import Verif.Props.Leftout
import Verif.Props.LeftoutDemo
import Verif.Props.Lifecycle
import Verif.Props.LifecycleDemo
import Verif.Props.Locked
import Verif.Props.LockedBackend
import Verif.Props.LockedDemo
import Verif.Props.Lockout
import Verif.Props.LockoutDemo
import Verif.Props.Memory
import Verif.Props.MemoryDemo
import Verif.Props.MoreInstances
import Verif.Props.Needed
import Verif.Props.NeededDemo
import Verif.Props.OneRoute
import Verif.Props.OneRouteDemo
import Verif.Props.Optimised
import Verif.Props.Options
import Verif.Props.Order
import Verif.Props.OrderDemo
import Verif.Props.Origin
import Verif.Props.OriginCeremony
import Verif.Props.Outcome
import Verif.Props.OutcomeInput
import Verif.Props.Page
import Verif.Props.PageDemo
import Verif.Props.PageExact
import Verif.Props.PageFlow
import Verif.Props.PageFlowHonest
import Verif.Props.PageNamed
import Verif.Props.PageTexts
import Verif.Props.Parse
import Verif.Props.Phishing
import Verif.Props.PhishingDemo
import Verif.Props.Random
import Verif.Props.RandomDemo
import Verif.Props.Registrar
import Verif.Props.Renaming
import Verif.Props.RenamingDemo
import Verif.Props.Repaired
import Verif.Props.RepairedJsonify
import Verif.Props.RepairedOrigin
import Verif.Props.Restore
import Verif.Props.RestoreDemo
import Verif.Props.RestoreMarked
import Verif.Props.Retry
import Verif.Props.RetryDemo
import Verif.Props.RetryKills
import Verif.Props.Revoke
import Verif.Props.RevokeDemo
import Verif.Props.Separation
import Verif.Props.SeparationDemo
import Verif.Props.SomeCredential
import Verif.Props.Strictness
import Verif.Props.StrictnessDemo
import Verif.Props.Swept
import Verif.Props.SweptDemo
import Verif.Props.Traces
import Verif.Props.TracesDemo
import Verif.Props.TypesJson
import Verif.Props.Unsigned
import Verif.Props.UnsignedDemo
import Verif.Props.Whole
import Verif.Props.WholeDemo
import Verif.Spec.Accounts
import Verif.Spec.AndroidStrict
import Verif.Spec.Answer
import Verif.Spec.AttestOutcome
import Verif.Spec.Attestation
import Verif.Spec.Base64
import Verif.Spec.Basic
import Verif.Spec.Binding
import Verif.Spec.Books
import Verif.Spec.Ceremony
import Verif.Spec.Checks
import Verif.Spec.Choosy
import Verif.Spec.Client
import Verif.Spec.ClientText
import Verif.Spec.Clock
import Verif.Spec.Contract
import Verif.Spec.Copies
import Verif.Spec.Counter
import Verif.Spec.Counterless
import Verif.Spec.Data
import Verif.Spec.Der
import Verif.Spec.Discreet
import Verif.Spec.Enumeration
import Verif.Spec.Exceptions
import Verif.Spec.Exchange
import Verif.Spec.Extensions
import Verif.Spec.Failure
import Verif.Spec.Flask
import Verif.Spec.FlaskAtomic
import Verif.Spec.FlaskFaults
import Verif.Spec.FlaskOutcome
import Verif.Spec.FlaskThreads
import Verif.Spec.Granted
import Verif.Spec.Guards
import Verif.Spec.Heap
import Verif.Spec.Honest
import Verif.Spec.Initial
import Verif.Spec.Isolation
import Verif.Spec.Json
import Verif.Spec.JsonGrammar
import Verif.Spec.KeyAttestation
import Verif.Spec.KeyUse
import Verif.Spec.Kills
import Verif.Spec.Laws
import Verif.Spec.Leftout
import Verif.Spec.Lifecycle
import Verif.Spec.Locked
import Verif.Spec.LockedBackend
import Verif.Spec.Memory
import Verif.Spec.Names
import Verif.Spec.Needed
import Verif.Spec.OneRoute
import Verif.Spec.Options
import Verif.Spec.Order
import Verif.Spec.Ordinary
import Verif.Spec.Outcome
import Verif.Spec.OutcomeInput
import Verif.Spec.Page
import Verif.Spec.PageExact
import Verif.Spec.PageFlow
import Verif.Spec.PageTexts
import Verif.Spec.Phishing
import Verif.Spec.Random
import Verif.Spec.Registrar
import Verif.Spec.Renaming
import Verif.Spec.Repaired
import Verif.Spec.Restore
import Verif.Spec.Retry
import Verif.Spec.Revoke
import Verif.Spec.Separation
import Verif.Spec.SomeCredential
import Verif.Spec.Strictness
import Verif.Spec.Swept
import Verif.Spec.Traces
import Verif.Spec.TypesJson
import Verif.Spec.Unsigned
import Verif.Spec.Whole
import Verif.Tests.Attesters
import Verif.Tests.Backends
import Verif.Tests.Basic
import Verif.Tests.Converters
import Verif.Tests.Parsers
import Verif.Tests.Utils
