import Verif.Model.Basic
import Verif.Model.Charclass
import Verif.Model.Compdfa
import Verif.Model.Crash
import Verif.Model.Cull
import Verif.Model.Database
import Verif.Model.Dates
import Verif.Model.DbFile
import Verif.Model.Decode
import Verif.Model.Dfasyn
import Verif.Model.Disk
import Verif.Model.Dotlock
import Verif.Model.Dump
import Verif.Model.Encoding
import Verif.Model.Expand
import Verif.Model.Folders
import Verif.Model.Glob
import Verif.Model.Hash
import Verif.Model.Header
import Verif.Model.Imap
import Verif.Model.ImapLine
import Verif.Model.ImapLogin
import Verif.Model.Integrity
import Verif.Model.Mapping
import Verif.Model.MboxScan
import Verif.Model.MboxUpdate
import Verif.Model.Md5
import Verif.Model.Message
import Verif.Model.Mime
import Verif.Model.Nfa
import Verif.Model.NfaFiles
import Verif.Model.NfaText
import Verif.Model.NfaTexts
import Verif.Model.Nvp
import Verif.Model.Output
import Verif.Model.Rc
import Verif.Model.ReadDb
import Verif.Model.Regex
import Verif.Model.Run
import Verif.Model.Scanners
import Verif.Model.Search
import Verif.Model.SearchTop
import Verif.Model.Stored
import Verif.Model.Subset
import Verif.Model.Substring
import Verif.Model.Tables
import Verif.Model.Terminal
import Verif.Model.Threading
import Verif.Model.TokTable
import Verif.Model.Tokenise
import Verif.Model.Update
import Verif.Model.Whole
import Verif.Proofs.Again
import Verif.Proofs.Ambiguous
import Verif.Proofs.BoxAppend
import Verif.Proofs.BoxSplit
import Verif.Proofs.BoxWhole
import Verif.Proofs.Bytes
import Verif.Proofs.CText
import Verif.Proofs.Calendar
import Verif.Proofs.CharBits
import Verif.Proofs.CharScanner
import Verif.Proofs.CharSplit
import Verif.Proofs.Classes
import Verif.Proofs.Closure
import Verif.Proofs.Colons
import Verif.Proofs.Compdfa
import Verif.Proofs.Cull
import Verif.Proofs.CullFuel
import Verif.Proofs.DateAuto
import Verif.Proofs.DateCert
import Verif.Proofs.DateForms
import Verif.Proofs.DatePositions
import Verif.Proofs.DateRefuse
import Verif.Proofs.DateScan
import Verif.Proofs.DateShape
import Verif.Proofs.DbLoad
import Verif.Proofs.DbRead
import Verif.Proofs.DbRead2
import Verif.Proofs.DbView
import Verif.Proofs.DbWrite
import Verif.Proofs.DbWrite2
import Verif.Proofs.Dead
import Verif.Proofs.Disk
import Verif.Proofs.DiskNames
import Verif.Proofs.Dump
import Verif.Proofs.Encoding
import Verif.Proofs.Folders
import Verif.Proofs.FromCert
import Verif.Proofs.FromPositions
import Verif.Proofs.FromScan
import Verif.Proofs.Glob
import Verif.Proofs.Good
import Verif.Proofs.Header
import Verif.Proofs.ISort
import Verif.Proofs.Imap
import Verif.Proofs.ImapAccept
import Verif.Proofs.ImapCommand
import Verif.Proofs.ImapLine
import Verif.Proofs.ImapList
import Verif.Proofs.ImapLogin
import Verif.Proofs.ImapRun
import Verif.Proofs.ImapServer
import Verif.Proofs.ImapStory
import Verif.Proofs.Integrity
import Verif.Proofs.Listing
import Verif.Proofs.LoadJunk
import Verif.Proofs.Lookup
import Verif.Proofs.Maildir
import Verif.Proofs.MboxLists
import Verif.Proofs.MboxScan
import Verif.Proofs.MboxUpdate
import Verif.Proofs.Md5
import Verif.Proofs.Md5Block
import Verif.Proofs.Message
import Verif.Proofs.MimeHeader
import Verif.Proofs.MimeParts
import Verif.Proofs.MimeSafe
import Verif.Proofs.MimeScan
import Verif.Proofs.NfaBound
import Verif.Proofs.NfaCert
import Verif.Proofs.NfaLex
import Verif.Proofs.NfaParse
import Verif.Proofs.NfaParseOnly
import Verif.Proofs.NfaScan
import Verif.Proofs.NfaSets
import Verif.Proofs.NfaSteps
import Verif.Proofs.NfaTextDate
import Verif.Proofs.NfaTextFrom
import Verif.Proofs.NfaTextNvp
import Verif.Proofs.Nvp
import Verif.Proofs.NvpBlocks
import Verif.Proofs.NvpCert
import Verif.Proofs.NvpData
import Verif.Proofs.NvpDone
import Verif.Proofs.NvpMain
import Verif.Proofs.NvpParse
import Verif.Proofs.NvpRead
import Verif.Proofs.NvpRefs
import Verif.Proofs.NvpSafe
import Verif.Proofs.NvpScan
import Verif.Proofs.Output
import Verif.Proofs.Positions
import Verif.Proofs.Posted
import Verif.Proofs.Prov
import Verif.Proofs.Query
import Verif.Proofs.Rc
import Verif.Proofs.Regex
import Verif.Proofs.Results
import Verif.Proofs.RunChecks
import Verif.Proofs.RunProgress
import Verif.Proofs.RunSpec
import Verif.Proofs.RunStep
import Verif.Proofs.RunUpdate
import Verif.Proofs.RunView
import Verif.Proofs.Scanner
import Verif.Proofs.Search
import Verif.Proofs.SearchTop
import Verif.Proofs.Sine
import Verif.Proofs.Split
import Verif.Proofs.Strings
import Verif.Proofs.Subset
import Verif.Proofs.SubsetEnds
import Verif.Proofs.SubsetRun
import Verif.Proofs.Substring
import Verif.Proofs.Tables
import Verif.Proofs.Terminal
import Verif.Proofs.Threading
import Verif.Proofs.TokHistory
import Verif.Proofs.TokHistory2
import Verif.Proofs.TokRep
import Verif.Proofs.TokTable
import Verif.Proofs.Update
import Verif.Props.Again
import Verif.Props.Augment
import Verif.Props.AugmentBoxes
import Verif.Props.AugmentBoxesExamples
import Verif.Props.AugmentExamples
import Verif.Props.AugmentGrown
import Verif.Props.AugmentGrownExamples
import Verif.Props.AugmentMbox
import Verif.Props.BoxWhole
import Verif.Props.Charclass
import Verif.Props.Crash
import Verif.Props.Dates
import Verif.Props.DbFile
import Verif.Props.Decode
import Verif.Props.Dfasyn
import Verif.Props.Disk
import Verif.Props.DiskMore
import Verif.Props.Dotlock
import Verif.Props.Dump
import Verif.Props.Encoding
import Verif.Props.Expand
import Verif.Props.Folders
import Verif.Props.FromLine
import Verif.Props.Glob
import Verif.Props.Hash
import Verif.Props.Header
import Verif.Props.Imap
import Verif.Props.ImapLine
import Verif.Props.ImapLogin
import Verif.Props.IntegrityMore
import Verif.Props.Mapping
import Verif.Props.Mbox
import Verif.Props.Md5
import Verif.Props.MessageDate
import Verif.Props.Mime
import Verif.Props.MimeExamples
import Verif.Props.MimeSafe
import Verif.Props.NfaText
import Verif.Props.Numbers
import Verif.Props.NumbersExamples
import Verif.Props.Nvp
import Verif.Props.Options
import Verif.Props.Output
import Verif.Props.Posted
import Verif.Props.PostedExamples
import Verif.Props.Rc
import Verif.Props.RcSafe
import Verif.Props.Run
import Verif.Props.RunExamples
import Verif.Props.Scanners
import Verif.Props.Search
import Verif.Props.SearchMbox
import Verif.Props.SearchTop
import Verif.Props.SearchTopExamples
import Verif.Props.Stored
import Verif.Props.Substring
import Verif.Props.Terminal
import Verif.Props.TerminalDates
import Verif.Props.TerminalExamples
import Verif.Props.Threading
import Verif.Props.ThreadsMbox
import Verif.Props.ThreadsTerminal
import Verif.Props.ThreadsTop
import Verif.Props.ThreadsTopExamples
import Verif.Props.ThreadsWhole
import Verif.Props.ThreadsWholeExamples
import Verif.Props.TokTable
import Verif.Props.Tokenise
import Verif.Props.Update
import Verif.Props.UpdateExamples
import Verif.Props.Version
import Verif.Props.Whole
import Verif.Props.WholeExamples
import Verif.Spec.Augment
import Verif.Spec.AugmentBoxes
import Verif.Spec.AugmentGrown
import Verif.Spec.AugmentMbox
import Verif.Spec.BoxWhole
import Verif.Spec.Charclass
import Verif.Spec.Crash
import Verif.Spec.Dates
import Verif.Spec.DbFile
import Verif.Spec.Decode
import Verif.Spec.Disk
import Verif.Spec.Dotlock
import Verif.Spec.Dump
import Verif.Spec.Edit
import Verif.Spec.Expand
import Verif.Spec.Folders
import Verif.Spec.FromLine
import Verif.Spec.Glob
import Verif.Spec.Hash
import Verif.Spec.Header
import Verif.Spec.Imap
import Verif.Spec.ImapCommand
import Verif.Spec.ImapLine
import Verif.Spec.ImapLogin
import Verif.Spec.ImapServer
import Verif.Spec.Index
import Verif.Spec.Integrity
import Verif.Spec.Mail
import Verif.Spec.Mapping
import Verif.Spec.Mbox
import Verif.Spec.MboxIntact
import Verif.Spec.MboxUpdate
import Verif.Spec.Md5
import Verif.Spec.Message
import Verif.Spec.Mime
import Verif.Spec.NfaText
import Verif.Spec.Nvp
import Verif.Spec.Output
import Verif.Spec.Posted
import Verif.Spec.Purge
import Verif.Spec.Query
import Verif.Spec.Rc
import Verif.Spec.Regex
import Verif.Spec.Run
import Verif.Spec.Scanners
import Verif.Spec.SearchTop
import Verif.Spec.Subset
import Verif.Spec.Terminal
import Verif.Spec.Threads
import Verif.Spec.ThreadsWhole
import Verif.Spec.Update
import Verif.Spec.Whole
import Verif.Spec.Words
