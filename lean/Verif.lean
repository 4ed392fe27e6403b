import Verif.Model.Abort
import Verif.Model.Basic
import Verif.Model.Common
import Verif.Model.CompleteMessages
import Verif.Model.Concurrent
import Verif.Model.Driver
import Verif.Model.Engine
import Verif.Model.Inquiry
import Verif.Model.Layout
import Verif.Model.Lifecycle
import Verif.Model.Log
import Verif.Model.Messages
import Verif.Model.Misc
import Verif.Model.ModeSense
import Verif.Model.Module
import Verif.Model.ModuleConcurrent
import Verif.Model.Nvme
import Verif.Model.Read
import Verif.Model.ReportLuns
import Verif.Model.Request
import Verif.Model.Scsi
import Verif.Model.ScsiOther
import Verif.Model.Status
import Verif.Model.Translation
import Verif.Model.Unmap
import Verif.Model.Unopened
import Verif.Model.Write
import Verif.Proofs.Alloc
import Verif.Proofs.Api
import Verif.Proofs.Balance
import Verif.Proofs.Begin
import Verif.Proofs.BeginApi
import Verif.Proofs.Built
import Verif.Proofs.Bytes
import Verif.Proofs.Cases
import Verif.Proofs.Cases2
import Verif.Proofs.Cases3
import Verif.Proofs.Cases4
import Verif.Proofs.Complete
import Verif.Proofs.CompleteMessages
import Verif.Proofs.Concurrent
import Verif.Proofs.Defined
import Verif.Proofs.Demos
import Verif.Proofs.Disk
import Verif.Proofs.Engine
import Verif.Proofs.Events
import Verif.Proofs.Frame
import Verif.Proofs.Good
import Verif.Proofs.Granted
import Verif.Proofs.Harmless
import Verif.Proofs.Honest
import Verif.Proofs.Linear
import Verif.Proofs.Mem
import Verif.Proofs.ModuleConcurrent
import Verif.Proofs.ModuleHonest
import Verif.Proofs.ModuleLinear
import Verif.Proofs.Ran
import Verif.Proofs.Responses
import Verif.Proofs.Rets
import Verif.Proofs.Rw
import Verif.Proofs.RwAny
import Verif.Proofs.Structs
import Verif.Proofs.Summary
import Verif.Proofs.Twin
import Verif.Proofs.Unmap
import Verif.Proofs.Vpd
import Verif.Proofs.Wire
import Verif.Properties.Abort
import Verif.Properties.Aging
import Verif.Properties.BeginAll
import Verif.Properties.BeginExact
import Verif.Properties.Bounded
import Verif.Properties.Cache
import Verif.Properties.Capacity
import Verif.Properties.Commands
import Verif.Properties.CompleteMessages
import Verif.Properties.Completions
import Verif.Properties.Concurrent
import Verif.Properties.ConcurrentQuery
import Verif.Properties.Direct
import Verif.Properties.Disk
import Verif.Properties.Driver
import Verif.Properties.Engine
import Verif.Properties.EngineExact
import Verif.Properties.Fields
import Verif.Properties.Geometry
import Verif.Properties.Helpers
import Verif.Properties.Honest
import Verif.Properties.InquiryExact
import Verif.Properties.InquiryPages
import Verif.Properties.InquiryPages2
import Verif.Properties.InquiryPages3
import Verif.Properties.Io
import Verif.Properties.Journal
import Verif.Properties.Layouts
import Verif.Properties.Lifecycle
import Verif.Properties.Log
import Verif.Properties.Lossy
import Verif.Properties.Luns
import Verif.Properties.Many
import Verif.Properties.Memory
import Verif.Properties.MessageCatalogue
import Verif.Properties.Messages
import Verif.Properties.ModeData
import Verif.Properties.Module
import Verif.Properties.ModuleBalance
import Verif.Properties.ModuleCache
import Verif.Properties.ModuleConcurrent
import Verif.Properties.ModuleConcurrentQuery
import Verif.Properties.ModuleDisk
import Verif.Properties.ModuleDurable
import Verif.Properties.ModuleHonest
import Verif.Properties.ModuleLossy
import Verif.Properties.ModuleQuery
import Verif.Properties.ModuleTarget
import Verif.Properties.Padding
import Verif.Properties.Pages
import Verif.Properties.PagesAny
import Verif.Properties.Plan
import Verif.Properties.Protocol
import Verif.Properties.Query
import Verif.Properties.ReadThrough
import Verif.Properties.ReadWrite
import Verif.Properties.Reply
import Verif.Properties.Request
import Verif.Properties.Reread
import Verif.Properties.Restart
import Verif.Properties.Safety
import Verif.Properties.Safety2
import Verif.Properties.ScsiOther
import Verif.Properties.Simple
import Verif.Properties.Stack
import Verif.Properties.StackConcurrent
import Verif.Properties.Status
import Verif.Properties.Target
import Verif.Properties.UnmapBegin
import Verif.Properties.UnmapProps
import Verif.Properties.Unopened
import Verif.Properties.Unreported
import Verif.Spec.Actual
import Verif.Spec.Aging
import Verif.Spec.Cache
import Verif.Spec.Complete
import Verif.Spec.CompleteMessages
import Verif.Spec.Concurrent
import Verif.Spec.Controller
import Verif.Spec.Demo
import Verif.Spec.Direct
import Verif.Spec.Disk
import Verif.Spec.Driver
import Verif.Spec.Engine
import Verif.Spec.EngineReply
import Verif.Spec.History
import Verif.Spec.Honest
import Verif.Spec.Lifecycle
import Verif.Spec.Lossy
import Verif.Spec.Many
import Verif.Spec.Messages
import Verif.Spec.Module
import Verif.Spec.ModuleConcurrent
import Verif.Spec.ModuleHonest
import Verif.Spec.ModuleTarget
import Verif.Spec.Objects
import Verif.Spec.Padding
import Verif.Spec.Plan
import Verif.Spec.Prp
import Verif.Spec.ReadThrough
import Verif.Spec.Reply
import Verif.Spec.Request
import Verif.Spec.Reread
import Verif.Spec.Responses
import Verif.Spec.Restart
import Verif.Spec.ScsiOther
import Verif.Spec.Stack
import Verif.Spec.Target
import Verif.Spec.Translate
import Verif.Spec.Unmap
import Verif.Spec.Wire
import Verif.Validation.Others
import Verif.Validation.Pages
import Verif.Validation.ReadWrite
