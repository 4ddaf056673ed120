import Verif.Model.Data
import Verif.Model.Words
import Verif.Model.Dictionary
import Verif.Model.Lexicon
import Verif.Model.LexSets
import Verif.Model.Lazy
import Verif.Model.Constructors
import Verif.Model.Transformators
import Verif.Model.Templates
import Verif.Model.Migrations
import Verif.Proofs.Nearest
import Verif.Model.AddWords
import Verif.Spec.AddWords
import Verif.Props.Properties
import Verif.Props.Words
import Verif.Props.WordForms
import Verif.Props.Autofill
import Verif.Props.Dictionary
import Verif.Props.Lexicon
import Verif.Props.LexThreads
import Verif.Props.Lazy
import Verif.Props.Integers
import Verif.Props.Transformators
import Verif.Props.Templates
import Verif.Props.Substitutions
import Verif.Props.Counted
import Verif.Props.Checked
import Verif.Props.Readme
import Verif.Props.Locality
import Verif.Props.BareWords
import Verif.Props.Migrations
import Verif.Props.OldMigrations
import Verif.Props.AnyTables
import Verif.Props.AnySchema
import Verif.Model.Objects
import Verif.Model.Exceptions
import Verif.Spec.Objects
import Verif.Props.Objects
import Verif.Props.Rebuild
import Verif.Props.TestWords
import Verif.Props.Exceptions
import Verif.Props.Expressive
import Verif.Props.Agreement
import Verif.Conformance.Util
import Verif.Conformance.Tables
import Verif.Conformance.Words
import Verif.Conformance.Texts
import Verif.Props.Histories
import Verif.Props.Interchange
import Verif.Props.EndToEnd
import Verif.Spec.Reference
import Verif.Props.Reference
import Verif.Props.Exact
import Verif.Spec.Layout
import Verif.Proofs.Layout
import Verif.Proofs.Plan7
import Verif.Proofs.Plan8
import Verif.Proofs.Plan9
import Verif.Props.Semantic
import Verif.Model.Aliasing
import Verif.Spec.Aliasing
import Verif.Props.Aliasing
import Verif.Props.CallerLists
import Verif.Model.Threads
import Verif.Spec.Threads
import Verif.Props.Threads
import Verif.Props.DictThreads
import Verif.Model.Filling
import Verif.Spec.Filling
import Verif.Props.Filling
import Verif.Model.LexReads
import Verif.Spec.LexReads
import Verif.Props.LexReads
import Verif.Props.Fair
import Verif.Props.AddWords
import Verif.Props.Format
import Verif.Spec.Expressive
import Verif.Model.Rendering
import Verif.Spec.Rendering
import Verif.Props.Rendering
import Verif.Model.World
import Verif.Spec.World
import Verif.Props.World
import Verif.Spec.Grammar
import Verif.Props.Grammar
import Verif.Model.Queries
import Verif.Spec.Queries
import Verif.Props.Queries
import Verif.Model.FillThreads
import Verif.Spec.FillThreads
import Verif.Props.FillThreads
import Verif.Spec.Rerun
import Verif.Props.Rerun
import Verif.Spec.Interrupted
import Verif.Props.Interrupted
import Verif.Spec.Writing
import Verif.Props.Writing
import Verif.Model.PrettyPrint
import Verif.Spec.PythonTable
import Verif.Props.PrettyPrint
import Verif.Spec.SameData
import Verif.Props.SameData
import Verif.Spec.Phrase
import Verif.Props.Phrase
import Verif.Props.Capital
import Verif.Spec.Plain
import Verif.Props.Plain
import Verif.Spec.Failures
import Verif.Spec.Mention
import Verif.Spec.LexSets
import Verif.Props.Failures
import Verif.Props.Mention
import Verif.Props.LexSets
import Verif.Spec.Upgrade
import Verif.Props.Upgrade
import Verif.Model.AnyExternals
import Verif.Spec.AnyExternals
import Verif.Props.AnyExternals
import Verif.Model.Tuples
import Verif.Spec.Tuples
import Verif.Props.Tuples
import Verif.Spec.Announce
import Verif.Props.Announce
import Verif.Model.FillAdd
import Verif.Spec.FillAdd
import Verif.Props.FillAdd
import Verif.Model.NoneForms
import Verif.Spec.NoneForms
import Verif.Props.NoneForms
import Verif.Model.ParseThreads
import Verif.Spec.ParseThreads
import Verif.Props.ParseThreads
import Verif.Model.AnyJson
import Verif.Spec.AnyJson
import Verif.Props.AnyJson
import Verif.Model.TestWords
import Verif.Model.Numbers
import Verif.Spec.Numbers
import Verif.Props.Numbers
import Verif.Spec.ReadInt
import Verif.Props.ReadInt
import Verif.Model.Digits
import Verif.Spec.Digits
import Verif.Props.Digits
import Verif.Model.Containers
import Verif.Spec.Containers
import Verif.Props.Containers
import Verif.Model.AnyMigrations
import Verif.Spec.AnyMigrations
import Verif.Props.AnyMigrations
import Verif.Props.MigrationFaults
import Verif.Model.AnyWords
import Verif.Spec.AnyWords
import Verif.Props.AnyWords
import Verif.Model.AnyTemplates
import Verif.Spec.AnyTemplates
import Verif.Props.AnyTemplates
import Verif.Model.AnyDictionary
import Verif.Model.AnyFilling
import Verif.Spec.AnyDictionary
import Verif.Spec.AnyFilling
import Verif.Proofs.Comparing
import Verif.Props.AnyDictionary
import Verif.Props.AnyFilling
import Verif.Props.OddLetters
import Verif.Props.Presets
import Verif.Spec.Subject
import Verif.Props.Subject
import Verif.Spec.Sentence
import Verif.Props.Sentence
import Verif.Spec.Classes
import Verif.Props.Classes
import Verif.Model.MixedProperties
import Verif.Spec.MixedProperties
import Verif.Props.MixedProperties
import Verif.Model.MixedFilling
import Verif.Spec.MixedFilling
import Verif.Props.MixedFilling
import Verif.Model.NoneProperties
import Verif.Spec.NoneProperties
import Verif.Props.NoneProperties
import Verif.Spec.NumberPhrase
import Verif.Props.NumberPhrase
import Verif.Spec.CountedSubject
import Verif.Props.CountedSubject
import Verif.Spec.CountedAdjective
import Verif.Props.CountedAdjective
import Verif.Spec.PlainNumber
import Verif.Props.PlainNumber
import Verif.Spec.CountedPresent
import Verif.Props.CountedPresent
import Verif.Props.SeveralNumbers
import Verif.Props.Merge
import Verif.Props.Supply
