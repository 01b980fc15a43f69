import Verif.Model.GoStr
import Verif.Model.Types
import Verif.Model.Identifier
import Verif.Model.TVRead
import Verif.Model.Tags
import Verif.Model.TVParse
import Verif.Model.TVWrite
import Verif.Props.C01_C03_TVRead
import Verif.Props.C04_Injection
import Verif.Props.C05_C10_Parser
import Verif.Props.C11_Outline
import Verif.Props.C12_RoundTrip
import Verif.Props.C13_C14_Writer
import Verif.Props.C15_C18_Identifier
import Verif.Props.C44_Composite
import Verif.Model.Agents
import Verif.Model.Utils
import Verif.Props.C19_C20_Agents
import Verif.Props.C21_Verification
import Verif.Props.C22_Ignore
import Verif.Props.C23_Listing
import Verif.Model.SpdxLib
import Verif.Model.LicenseDiff
import Verif.Props.C24_C26_SpdxLib
import Verif.Props.C27_C29_LicenseDiff
import Verif.Model.Builder
import Verif.Model.IdSearcher
import Verif.Props.C30_C32_IdSearcher
import Verif.Props.C33_C34_Builder
import Verif.Model.Json
import Verif.Model.JsonDoc
import Verif.Model.ReadInto
import Verif.Props.C35_C37_JsonLoad
import Verif.Props.C47_Json
import Verif.Props.C38_C39_ReadInto
import Verif.Props.C48_Meaning
import Verif.Spec.IdsDocument
import Verif.Spec.PlainBuild
import Verif.Props.C45_IdsDocument
import Verif.Props.C46_BuiltRoundTrip
import Verif.Model.RdfTerms
import Verif.Model.RdfState
import Verif.Model.RdfLicense
import Verif.Model.Rdf
import Verif.Lemmas.RdfLogic
import Verif.Lemmas.RdfDepth
import Verif.Lemmas.RdfPure
import Verif.Spec.RdfLicense
import Verif.Lemmas.RdfLicense
import Verif.Lemmas.RdfExample
import Verif.Props.C40_RdfLicense
import Verif.Lemmas.ExprGrammar
import Verif.Props.C31_Grammar
import Verif.Spec.LicenseMeaning
import Verif.Props.C41_RdfLicenseText
import Verif.Spec.RdfRoles
import Verif.Lemmas.RdfInv
import Verif.Lemmas.RdfInvCalls
import Verif.Lemmas.RdfInvDoc
import Verif.Lemmas.RdfContent
import Verif.Lemmas.RdfContentBodies
import Verif.Lemmas.RdfContentCalls
import Verif.Lemmas.RdfDoc
import Verif.Lemmas.RdfRoles
import Verif.Lemmas.RdfSays
import Verif.Spec.RdfSays
import Verif.Spec.RdfElements
import Verif.Props.C42_C43_Rdf
import Verif.Spec.JsonSpelling
import Verif.Lemmas.JsonSpelling
import Verif.Lemmas.RdfContentDoc
import Verif.Lemmas.Number
import Verif.Lemmas.RdfSnippets
import Verif.Lemmas.RdfRead
import Verif.Spec.Number
import Verif.Spec.RdfSnippets
import Verif.Spec.RdfRead
import Verif.Props.C49_C53_RdfContent
import Verif.Spec.RdfLegal
import Verif.Lemmas.RdfLegal
import Verif.Lemmas.RdfLegalOnly
import Verif.Props.C54_RdfLegal
import Verif.Props.C69_RdfExact
import Verif.Spec.Sections
import Verif.Lemmas.SectionTags
import Verif.Lemmas.SectionFields
import Verif.Lemmas.SectionView
import Verif.Lemmas.SectionOpen
import Verif.Lemmas.SectionTree
import Verif.Lemmas.SectionInv
import Verif.Lemmas.SectionStep
import Verif.Props.C55_Sections
import Verif.Spec.LegalText
import Verif.Lemmas.LegalValues
import Verif.Lemmas.LegalStep
import Verif.Lemmas.LegalTrack
import Verif.Lemmas.LegalText
import Verif.Props.C56_LegalText
import Verif.Spec.JsonSays
import Verif.Lemmas.FoldKeys
import Verif.Lemmas.JsonSays
import Verif.Lemmas.JsonObjects
import Verif.Lemmas.JsonDocument
import Verif.Props.C57_JsonSays
import Verif.Model.JsonText
import Verif.Spec.JsonText
import Verif.Lemmas.JsonScan
import Verif.Lemmas.JsonGrammar
import Verif.Lemmas.JsonPrint
import Verif.Lemmas.JsonWritten
import Verif.Props.C58_JsonText
import Verif.Model.Yaml
import Verif.Lemmas.JsonOrder
import Verif.Lemmas.JsonSafe
import Verif.Props.C59_JsonOrder
import Verif.Props.C60_Yaml
import Verif.Spec.TextSays
import Verif.Spec.TVLines
import Verif.Lemmas.TextSays
import Verif.Lemmas.TVLines
import Verif.Props.C61_TextSays
import Verif.Model.Convert
import Verif.Spec.Converted
import Verif.Lemmas.Convert
import Verif.Lemmas.ConvertSteps
import Verif.Props.C62_Convert
import Verif.Model.Streams
import Verif.Spec.Streams
import Verif.Lemmas.Streams
import Verif.Props.C63_Streams
import Verif.Lemmas.SameDoc
import Verif.Lemmas.WriteSays
import Verif.Props.C64_WriteSays
import Verif.Spec.Transfer
import Verif.Lemmas.Transfer
import Verif.Props.C65_Transfer
import Verif.Model.NilEntries
import Verif.Spec.NilEntries
import Verif.Lemmas.NilFields
import Verif.Lemmas.NilRead
import Verif.Lemmas.NilPlain
import Verif.Lemmas.NilWrite
import Verif.Lemmas.NilSafe
import Verif.Lemmas.NilJson
import Verif.Lemmas.NilTrip
import Verif.Props.C66_NilEntries
import Verif.Spec.Savable
import Verif.Lemmas.Savable
import Verif.Props.C67_LoadSave
import Verif.Spec.JsonSavable
import Verif.Lemmas.JsonSavable
import Verif.Props.C68_JsonLoadSave
import Verif.Props.C70_RdfOrder
import Verif.Model.Bytes
import Verif.Spec.Bytes
import Verif.Lemmas.Bytes
import Verif.Lemmas.BytesStr
import Verif.Lemmas.BytesRead
import Verif.Lemmas.BytesFrom
import Verif.Props.C71_Bytes
import Verif.Model.Sharing
import Verif.Spec.Sharing
import Verif.Lemmas.Sharing
import Verif.Lemmas.SharingSave
import Verif.Lemmas.SharingParallel
import Verif.Lemmas.SharingSort
import Verif.Props.C72_Sharing
import Verif.Model.SearchBytes
import Verif.Spec.SearchBytes
import Verif.Lemmas.SearchBytes
import Verif.Props.C73_SearchBytes
import Verif.Spec.Built
import Verif.Props.C74_Built
import Verif.Model.TabWriter
import Verif.Model.Examples
import Verif.Spec.Report
import Verif.Spec.Examples
import Verif.Lemmas.TabWriter
import Verif.Props.C29_Printed
import Verif.Props.C75_Examples
import Verif.Model.Reflect
import Verif.Props.C76_AnyDocument
import Verif.Model.Programs
import Verif.Spec.Programs
import Verif.Lemmas.Programs
import Verif.Props.C77_Programs
import Verif.Spec.Upgrade
import Verif.Lemmas.Upgrade
import Verif.Props.C78_Upgrade
import Verif.Spec.RdfSavable
import Verif.Lemmas.RdfSavable
import Verif.Props.C79_RdfToJson
import Verif.Spec.RdfTextable
import Verif.Lemmas.RdfTextable
import Verif.Props.C80_RdfToText
import Verif.Model.RdfInto
import Verif.Lemmas.UpgradeJson
import Verif.Props.C81_OtherVersion
import Verif.Model.Loaders
import Verif.Spec.Loaders
import Verif.Props.C82_Loaders
import Verif.Props.C82_Together
import Verif.Model.ReflectFormats
import Verif.Props.C76_Formats
import Verif.Model.JsonBytes
import Verif.Spec.JsonBytes
import Verif.Lemmas.JsonBytes
import Verif.Lemmas.JsonBytesScan
import Verif.Lemmas.JsonBytesUnquote
import Verif.Lemmas.JsonBytesValue
import Verif.Lemmas.JsonBytesQuote
import Verif.Props.C83_JsonBytes
import Verif.Model.ReportTo
import Verif.Props.C63_Report
import Verif.Spec.Answers
import Verif.Lemmas.Answers
import Verif.Props.C84_Answers
import Verif.Lemmas.JsonStable
import Verif.Props.C85_JsonStable
import Verif.Model.EmptyLists
import Verif.Spec.EmptyLists
import Verif.Spec.RepeatedKeys
import Verif.Lemmas.EmptyLists
import Verif.Lemmas.EmptyDocs
import Verif.Props.C86_EmptyLists
import Verif.Model.Reuse
import Verif.Lemmas.Reuse
import Verif.Props.C87_RepeatedKeys
import Verif.Model.OddAgents
import Verif.Spec.OddAgents
import Verif.Lemmas.OddAgents
import Verif.Props.C88_OddAgents
import Verif.Props.C54_Terms
import Verif.Props.C89_Words
import Verif.Props.C90_NilConvert
import Verif.Spec.EmptyParts
import Verif.Lemmas.EmptyParts
import Verif.Props.C91_EmptyParts
import Verif.Model.NilPrint
import Verif.Spec.NilPrint
import Verif.Lemmas.NilPrint
import Verif.Props.C92_NilPrint
import Verif.Spec.LicenseNames
import Verif.Props.C54_Licenses
import Verif.Props.C92_Order
import Verif.Spec.RdfValid
import Verif.Props.C93_RdfValid
import Verif.Props.C84_Rdf
import Verif.Props.C94_RdfDescribed
import Verif.Spec.TextValid
import Verif.Props.C95_TextValid
import Verif.Spec.JsonValid
import Verif.Lemmas.JsonValid
import Verif.Props.C97_JsonValid
import Verif.Props.C97_Texts
import Verif.Props.C95_Texts
import Verif.Props.C99_Edited
