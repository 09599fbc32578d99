import Verif.Model.Util
import Verif.Model.Recurrent
import Verif.Model.Event
import Verif.Model.History
import Verif.Props.Util
import Verif.Props.Dates
import Verif.Props.Recurrence
import Verif.Props.RecurrenceMonthly
import Verif.Props.RecurrenceAll
import Verif.Props.Rules
import Verif.Props.Samples
import Verif.Props.Queries
import Verif.Props.Expand
import Verif.Props.Total
import Verif.Props.Segments
import Verif.Props.Blocked
import Verif.Props.Store
import Verif.Props.Participation
import Verif.Props.Allday
import Verif.Props.Import
import Verif.Props.Modify
import Verif.Props.ICal
import Verif.Props.Export
import Verif.Props.Algebra
import Verif.Props.Algebra2
import Verif.Props.Views
import Verif.Props.Interference
import Verif.Props.Weeks
import Verif.Props.Criteria
import Verif.Props.Valid
import Verif.Props.Source
import Verif.Props.Import2
import Verif.Props.Objects
import Verif.Props.Subscribers
import Verif.Props.Repr
import Verif.Props.Translate
import Verif.Props.Fresh
import Verif.Props.Booking
import Verif.Props.Mirror
import Verif.Props.Copy
import Verif.Props.RFC
import Verif.Props.Periods
import Verif.Props.Forms
import Verif.Props.Announce
import Verif.Props.Never
import Verif.Props.Rename
import Verif.Props.Histories
import Verif.Props.Redact
import Verif.Props.Undo
import Verif.Props.Untyped
import Verif.Props.Move
import Verif.Props.Errors
import Verif.Props.ImportErrors
import Verif.Props.Manager
import Verif.Props.Order
import Verif.Props.Parts
import Verif.Conformance.Tests
import Verif.Conformance.ICal
import Verif.Props.PyEval
import Verif.Props.Busy
import Verif.Props.Containers
import Verif.Props.Interfaces
import Verif.Props.Imported
import Verif.Props.Shown
import Verif.Props.Exported
import Verif.Props.Schema
import Verif.Props.LastDay
import Verif.Props.Sharing
import Verif.Props.Written
import Verif.Props.WrittenCal
import Verif.Props.WrittenCalendar
import Verif.Props.WrittenChanges
import Verif.Props.WrittenImport
import Verif.Props.WrittenText
import Verif.Props.WrittenExport
import Verif.Props.WrittenCalExport
import Verif.Props.WrittenSmall
import Verif.Props.WrittenClock
import Verif.Props.WrittenImportAll
import Verif.Props.WrittenAttendee
import Verif.Props.WrittenHistory
import Verif.Props.WrittenCalls
