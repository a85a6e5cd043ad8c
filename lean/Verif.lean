import Verif.Props.Order
import Verif.Props.TypeMutation
import Verif.Props.Rules
import Verif.Model.TypeBuild
import Verif.Props.Layout
import Verif.Props.Features
import Verif.Props.Registry
import Verif.Props.RuleSet
import Verif.Props.Types
import Verif.Props.DomainFeatures
import Verif.Props.Dispatch
import Verif.Props.Objects
import Verif.Props.ObjectMoves
import Verif.Props.ObjectCopies
import Verif.Props.Mutations
import Verif.Props.System
import Verif.Props.Compare
import Verif.Props.RulesV1
import Verif.Props.MixinData
import Verif.Props.Concurrent
import Verif.Spec.AnySchedule
import Verif.Proofs.AnyScheduleLemmas
import Verif.Props.AnySchedule
import Verif.Props.Implements
import Verif.Props.CApi
import Verif.Props.Locks
import Verif.Props.LocksExact
import Verif.Props.FeaturesExact
import Verif.Props.Unparted
import Verif.Props.UnpartedAnswers
import Verif.Props.UnpartedMore
import Verif.Props.LinearExact
import Verif.Props.LifetimeExact
import Verif.Props.MemoryUnparted
import Verif.Props.PlainExact
import Verif.Props.SystemExact
import Verif.Props.BuilderExact
import Verif.Props.Traverse
import Verif.Props.Closure
import Verif.Props.RulesExact
import Verif.Props.Builder
import Verif.Props.Bytes
import Verif.Props.Lifetime
import Verif.Props.Plugin
import Verif.Props.Calls
import Verif.Props.CallsExact
import Verif.Props.Acting
import Verif.Props.Answers
import Verif.Props.Isolation
import Verif.Props.Linear
import Verif.Props.Search
import Verif.Model.NamedInit
import Verif.Spec.NamedInit
import Verif.Proofs.NamedInitLemmas
import Verif.Props.NamedInit
import Verif.Spec.Independent
import Verif.Proofs.IndependentLemmas
import Verif.Proofs.IndependentSessions
import Verif.Proofs.IndependentObjects
import Verif.Proofs.IndependentPrograms
import Verif.Props.Independent
import Verif.Model.ObjectSteps
import Verif.Spec.Threads
import Verif.Proofs.StepLemmas
import Verif.Proofs.StepSim
import Verif.Proofs.ThreadSteps
import Verif.Proofs.ThreadRuns
import Verif.Props.ObjectThreads
import Verif.Model.TypeBuffer
import Verif.Spec.TypeMemory
import Verif.Proofs.BlockLemmas
import Verif.Proofs.BlockFtable
import Verif.Proofs.BlockTables
import Verif.Proofs.BlockType
import Verif.Proofs.BlockOver
import Verif.Props.TypeFailure
import Verif.Props.TypeMemory
import Verif.Model.MsgArgs
import Verif.Spec.MsgArgs
import Verif.Proofs.MsgArgLemmas
import Verif.Proofs.MsgArgSim
import Verif.Proofs.MsgArgKeep
import Verif.Props.MsgArgs
import Verif.Model.Messages
import Verif.Spec.Messages
import Verif.Proofs.MessageAgree
import Verif.Proofs.MessageTrue
import Verif.Proofs.MessageText
import Verif.Props.Messages
import Verif.Spec.Nested
import Verif.Proofs.NestedLemmas
import Verif.Props.Nested
import Verif.Model.MemoryResource
import Verif.Spec.MemoryResource
import Verif.Proofs.LayoutExact
import Verif.Proofs.MemoryLemmas
import Verif.Props.Memory
import Verif.Props.DependentsExact
import Verif.Props.Elements
import Verif.Model.ObjMessages
import Verif.Spec.ObjMessages
import Verif.Proofs.ObjMessageLemmas
import Verif.Proofs.ObjMessageRuns
import Verif.Proofs.ObjMessageExact
import Verif.Proofs.ObjMessageOps
import Verif.Props.ObjMessages
import Verif.Model.Dump
import Verif.Spec.Dump
import Verif.Proofs.DumpLemmas
import Verif.Proofs.DumpTypes
import Verif.Props.Dump
import Verif.Model.DomainMemory
import Verif.Spec.DomainMemory
import Verif.Proofs.DomainMemoryLemmas
import Verif.Proofs.DomainMemoryRuns
import Verif.Proofs.DomainMemoryAnswers
import Verif.Props.DomainMemory
import Verif.Props.Initializers
import Verif.Props.PieceExact
import Verif.Props.Walk
import Verif.Props.RegistryExact
import Verif.Model.DefMemory
import Verif.Spec.DefMemory
import Verif.Proofs.DefMemoryLemmas
import Verif.Proofs.DefMemoryCalls
import Verif.Proofs.DefMemoryGood
import Verif.Proofs.DefMemoryWorld
import Verif.Props.DefMemory
import Verif.Props.DefMemoryExact
import Verif.Model.ObjectDomains
import Verif.Spec.ObjectDomains
import Verif.Proofs.CrossLemmas
import Verif.Proofs.CrossExact
import Verif.Proofs.CrossDomains
import Verif.Props.ObjectDomains
import Verif.Proofs.CanonLast
import Verif.Props.Canon
import Verif.Model.ObjectV1
import Verif.Proofs.ObjectV1Lemmas
import Verif.Props.ObjectV1
import Verif.Props.CopyV1Exact
import Verif.Spec.Lost
import Verif.Proofs.LostLemmas
import Verif.Props.Lost
import Verif.Props.DumpItems
import Verif.Props.DumpMore
import Verif.Model.Living
import Verif.Spec.Living
import Verif.Proofs.LivingLemmas
import Verif.Props.Living
import Verif.Spec.SharedIds
import Verif.Proofs.SharedIdLemmas
import Verif.Props.SharedIds
import Verif.Proofs.HandExact
import Verif.Props.Exactly
import Verif.Model.RuleState
import Verif.Spec.RuleState
import Verif.Proofs.RuleStateLemmas
import Verif.Props.RuleState
import Verif.Model.Standard
import Verif.Spec.Standard
import Verif.Proofs.StandardLemmas
import Verif.Props.Standard
import Verif.Model.PlainObjects
import Verif.Spec.PlainObjects
import Verif.Proofs.PlainObjectLemmas
import Verif.Props.PlainObjects
import Verif.Model.NextQueries
import Verif.Props.NextQueries
import Verif.Spec.NoCycle
import Verif.Proofs.NoCycleLemmas
import Verif.Props.OrderExact
import Verif.Props.PluginExact
import Verif.Props.CombinedExact
import Verif.Props.CacheExact
import Verif.Model.FeatureDefs
import Verif.Spec.FeatureDefs
import Verif.Proofs.FeatureDefLemmas
import Verif.Props.FeatureDefs
import Verif.Props.CanonExact
import Verif.Props.RulesNoCycle
import Verif.Props.StandardExact
import Verif.Props.StaleExact
import Verif.Model.Allocators
import Verif.Spec.Allocators
import Verif.Proofs.AllocatorAgain
import Verif.Proofs.AllocatorLemmas
import Verif.Proofs.AllocatorRuns
import Verif.Proofs.AllocatorSteps
import Verif.Proofs.AllocatorUnseen
import Verif.Props.Allocators
