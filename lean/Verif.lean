import Verif.Model.Types
import Verif.Model.Errors
import Verif.Model.Marshal
import Verif.Model.Metadata
import Verif.Model.Trusted
import Verif.Model.Updater
import Verif.Model.Fetcher
import Verif.Model.Repository
import Verif.Model.MultiRepo
import Verif.Proofs.Verify
import Verif.Props.Verify
import Verif.Proofs.Hex
import Verif.Proofs.Hashes
import Verif.Props.Trusted
import Verif.Props.Parsing
import Verif.Proofs.Digits
import Verif.Proofs.Paths
import Verif.Props.Paths
import Verif.Props.KeyMgmt
import Verif.Props.NullRole
import Verif.Props.Small
import Verif.Proofs.Updater
import Verif.Proofs.Files
import Verif.Props.UpdaterEvents
import Verif.Proofs.Refresh
import Verif.Props.Refresh
import Verif.Proofs.Cache
import Verif.Props.Cache
import Verif.Props.Progress
import Verif.Spec.Search
import Verif.Proofs.Search
import Verif.Props.Search
import Verif.Props.SearchOrder
import Verif.Spec.Targets
import Verif.Props.Targets
import Verif.Spec.MultiRepo
import Verif.Proofs.MultiRepo
import Verif.Props.MultiRepo
import Verif.Proofs.Sorted
import Verif.Proofs.Any
import Verif.Spec.RoundTrip
import Verif.Proofs.RoundTrip
import Verif.Proofs.RoundTripTypes
import Verif.Proofs.WellFormed
import Verif.Proofs.Canon
import Verif.Props.RoundTrip
import Verif.Proofs.Payload
import Verif.Props.Payload
import Verif.Spec.Complete
import Verif.Proofs.Complete
import Verif.Props.Complete
import Verif.Spec.Sound
import Verif.Props.Sound
import Verif.Spec.Publish
import Verif.Props.Publish
import Verif.Props.Honest
import Verif.Props.Deep
import Verif.Props.PublishCase
import Verif.Props.SearchComplete
import Verif.Props.HonestTree
import Verif.Props.HonestTreeCase
import Verif.Spec.Forgery
import Verif.Props.Forgery
import Verif.Props.ForgeryCase
import Verif.Props.Offline
import Verif.Spec.Follow
import Verif.Props.Follow
import Verif.Props.FollowCase
import Verif.Model.Cli
import Verif.Spec.Cli
import Verif.Proofs.Clean
import Verif.Props.Cli
import Verif.Props.CliInit
import Verif.Props.CliCase
import Verif.Props.CliHonest
import Verif.Props.CliHonestCase
import Verif.Props.Std.Text
import Verif.Props.Std.Time
import Verif.Props.Std.Glob
import Verif.Props.KeyIds
import Verif.Props.Std.Grammar
import Verif.Props.TopLevel
import Verif.Spec.Signable
import Verif.Props.Signable
import Verif.Props.SignableCase
import Verif.Model.Example
import Verif.Spec.Example
import Verif.Props.Example
import Verif.Props.ExampleCase
import Verif.Model.Std.Url
import Verif.Spec.Std.TimeText
import Verif.Spec.Std.Url
import Verif.Proofs.Std.TimeText
import Verif.Proofs.Std.Url
import Verif.Props.Std.Url
import Verif.Spec.Std.UrlTail
import Verif.Proofs.Std.UrlTail
import Verif.Props.Std.UrlTail
import Verif.Spec.Recovery
import Verif.Props.Recovery
import Verif.Props.RecoveryCase
import Verif.Spec.Spelling
import Verif.Proofs.Spelling
import Verif.Spec.Fields
import Verif.Props.Fields
import Verif.Props.FieldsCase
import Verif.Spec.Cosign
import Verif.Props.Cosign
import Verif.Props.CosignCase
import Verif.Spec.Edits
import Verif.Props.Edits
import Verif.Spec.Grants
import Verif.Props.Grants
import Verif.Props.EditsCase
import Verif.Model.BasicRepository
import Verif.Spec.BasicRepository
import Verif.Props.BasicRepository
import Verif.Props.BasicRuns
import Verif.Props.BasicClients
import Verif.Props.BasicCase
import Verif.Spec.MultiDirs
import Verif.Props.MultiDirs
import Verif.Props.Temps
import Verif.Spec.MultiHonest
import Verif.Props.MultiHonest
import Verif.Props.MultiHonestCase
import Verif.Spec.MapFile
import Verif.Props.MapFile
import Verif.Props.MapFileCase
import Verif.Model.ClientExample
import Verif.Spec.ClientExample
import Verif.Spec.MultiSession
import Verif.Props.ClientExample
import Verif.Props.ClientExampleCase
import Verif.Props.MultiSession
import Verif.Props.Bootstrap
import Verif.Props.BootstrapCase
import Verif.Props.Fresh
import Verif.Props.Files
import Verif.Spec.SearchFollow
import Verif.Props.SearchFollow
import Verif.Props.CacheNew
import Verif.Spec.MultiDownload
import Verif.Props.MultiDownload
import Verif.Model.Simulator
import Verif.Spec.Simulator
import Verif.Props.SimulatorRuns
import Verif.Props.SimulatorSteps
import Verif.Props.SimulatorUpdates
import Verif.Props.SimulatorSettled
import Verif.Props.SimulatorServer
import Verif.Props.Simulator
import Verif.Props.SimulatorTargets
import Verif.Props.SimulatorCase
import Verif.Props.GoTests
import Verif.Props.RealCrypto
import Verif.Props.RepositoryData
import Verif.Props.TrustedTests
import Verif.Spec.Attack
import Verif.Props.Attack
import Verif.Props.AttackCase
import Verif.Spec.AttackSearch
import Verif.Props.AttackSearch
import Verif.Props.AttackSearchCase
import Verif.Spec.CatchUp
import Verif.Props.CatchUp
import Verif.Props.CatchUpCase
import Verif.Spec.CatchUpDemo
import Verif.Props.CatchUpDemo
import Verif.Props.CatchUpDemoCase
import Verif.Spec.Meaning
import Verif.Props.Meaning
import Verif.Props.MeaningTypes
import Verif.Props.MeaningCase
import Verif.Spec.Pem
import Verif.Model.Std.Pem
import Verif.Proofs.Std.Pem
import Verif.Proofs.Std.PemSound
import Verif.Props.Std.Pem
import Verif.Spec.Effort
import Verif.Proofs.Effort
import Verif.Props.Effort
import Verif.Model.Small
import Verif.Proofs.Small
import Verif.Spec.Shared
import Verif.Proofs.Shared
import Verif.Props.Shared
import Verif.Spec.Turns
import Verif.Props.Turns
import Verif.Spec.Lists
import Verif.Props.Lists
import Verif.Props.Std.Lists
import Verif.Props.Retry
import Verif.Props.RetryCase
import Verif.Model.SimulatorDump
import Verif.Model.TestSetup
import Verif.Spec.SimulatorDump
import Verif.Spec.TestSetup
import Verif.Props.SimulatorDump
import Verif.Props.SimulatorDumpCase
import Verif.Props.TestSetup
import Verif.Props.TestSetupCase
import Verif.Spec.UpToDate
import Verif.Props.UpToDate
import Verif.Spec.Workflow
import Verif.Props.Workflow
import Verif.Spec.DelegationGrants
import Verif.Props.DelegationGrants
import Verif.Props.DelegationGrantsCase
