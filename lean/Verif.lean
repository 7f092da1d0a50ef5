import Verif.Model.Basic
import Verif.Model.Codec
import Verif.Spec.Wire
import Verif.Lemmas.Bytes
import Verif.Lemmas.Codec
import Verif.Lemmas.Rx
import Verif.Model.ObjInfo
import Verif.Spec.ObjInfo
import Verif.Lemmas.ObjInfo
import Verif.Model.PropDesc
import Verif.Spec.PropDesc
import Verif.Lemmas.PropDesc
import Verif.Lemmas.Params
import Verif.Model.Transfer
import Verif.Spec.Decode
import Verif.Lemmas.Decode
import Verif.Props.Codec
import Verif.Props.CodecIn
import Verif.Model.Ids
import Verif.Lemmas.Ids
import Verif.Props.Ids
import Verif.Model.Cache
import Verif.Lemmas.AMap
import Verif.Spec.Cache
import Verif.Lemmas.Cache
import Verif.Props.Cache
import Verif.Model.Factory
import Verif.Lemmas.Factory
import Verif.Props.Factory
import Verif.Model.Ring
import Verif.Model.Usb
import Verif.Spec.Usb
import Verif.Lemmas.Ring
import Verif.Lemmas.Usb
import Verif.Props.Ring
import Verif.Props.Usb
import Verif.Model.FileIO
import Verif.Spec.FileIO
import Verif.Lemmas.FileIO
import Verif.Props.FileIO
import Verif.Model.Download
import Verif.Spec.Download
import Verif.Props.Download
import Verif.Model.Responder
import Verif.Lemmas.Responder
import Verif.Spec.Responder
import Verif.Spec.Toy
import Verif.Props.Busy
import Verif.Spec.Host
import Verif.Lemmas.DataPhase
import Verif.Props.Response
import Verif.Props.Session
import Verif.Props.Dispatch
import Verif.Spec.Upload
import Verif.Lemmas.Upload
import Verif.Props.Upload
import Verif.Props.Announce
import Verif.Props.Cancel
import Verif.Props.Edit
import Verif.Lemmas.Wait
import Verif.Lemmas.Events
import Verif.Props.Wait
import Verif.Props.Events
import Verif.Props.Suspend
import Verif.Model.Tree
import Verif.Spec.Tree
import Verif.Lemmas.Tree
import Verif.Lemmas.TreeDel
import Verif.Lemmas.TreeAdd
import Verif.Lemmas.TreeMove
import Verif.Lemmas.TreeStep
import Verif.Model.TreeQuery
import Verif.Props.Tree
import Verif.Props.Delete
import Verif.Props.Move
import Verif.Props.Handles
import Verif.Props.Names
import Verif.Props.Refs
import Verif.Model.Notify
import Verif.Props.Notify
import Verif.Model.Thumb
import Verif.Props.Thumb
import Verif.Model.Persist
import Verif.Spec.Persist
import Verif.Lemmas.Persist
import Verif.Lemmas.TreeIds
import Verif.Lemmas.RefFile
import Verif.Props.Persist
import Verif.Props.Restart
import Verif.Model.Decimal
import Verif.Lemmas.Decimal
import Verif.Model.Labels
import Verif.Lemmas.Labels
import Verif.Props.Labels
import Verif.Model.Dates
import Verif.Spec.Dates
import Verif.Lemmas.Dates
import Verif.Lemmas.DateText
import Verif.Props.Dates
import Verif.Model.PropPod
import Verif.Spec.PropPod
import Verif.Lemmas.PropPod
import Verif.Props.PropPod
import Verif.Model.PropList
import Verif.Spec.PropList
import Verif.Lemmas.PropList
import Verif.Props.PropList
import Verif.Model.PropSet
import Verif.Spec.PropSet
import Verif.Lemmas.PropSet
import Verif.Props.PropSet
import Verif.Props.PropSetList
import Verif.Model.RawData
import Verif.Props.RawData
import Verif.Model.DevProps
import Verif.Spec.DevProps
import Verif.Props.DevProps
import Verif.Model.Datasets
import Verif.Spec.Datasets
import Verif.Props.Datasets
import Verif.Model.Copy
import Verif.Lemmas.Copy
import Verif.Lemmas.CopyRun
import Verif.Lemmas.CopyDone
import Verif.Lemmas.CopyKeep
import Verif.Spec.Copy
import Verif.Props.Copy
import Verif.Lemmas.TreeEvents
import Verif.Spec.Changes
import Verif.Props.Changes
import Verif.Props.Adding
import Verif.Lemmas.TreeDead
import Verif.Model.Facts
import Verif.Spec.Facts
import Verif.Lemmas.Facts
import Verif.Lemmas.FactsStep
import Verif.Lemmas.FactsKnown
import Verif.Props.Facts
import Verif.Model.Server
import Verif.Spec.Server
import Verif.Lemmas.Closed
import Verif.Lemmas.ServerDisk
import Verif.Lemmas.Server
import Verif.Lemmas.ServerMove
import Verif.Lemmas.ServerRun
import Verif.Lemmas.ServerCopy
import Verif.Lemmas.ServerAsk
import Verif.Lemmas.ServerUpload
import Verif.Lemmas.ServerSend
import Verif.Lemmas.ServerInfo
import Verif.Lemmas.ServerOffer
import Verif.Lemmas.ServerAnswers
import Verif.Lemmas.Times
import Verif.Props.Server
import Verif.Lemmas.Spare
import Verif.Lemmas.ServerSpare
import Verif.Props.Survive
import Verif.Lemmas.ServerParts
import Verif.Lemmas.ServerPlace
import Verif.Lemmas.ServerEdit
import Verif.Props.Talk
import Verif.Spec.Startup
import Verif.Model.Startup
import Verif.Lemmas.TreeShown
import Verif.Lemmas.Startup
import Verif.Props.Startup
import Verif.Model.Interrupt
import Verif.Spec.Interrupt
import Verif.Lemmas.Interrupt
import Verif.Props.Interrupt
import Verif.Model.Link
import Verif.Spec.Link
import Verif.Lemmas.Resets
import Verif.Lemmas.Link
import Verif.Lemmas.LinkQuiet
import Verif.Lemmas.LinkLarge
import Verif.Props.Link
import Verif.Model.Control
import Verif.Spec.Control
import Verif.Lemmas.Control
import Verif.Lemmas.ControlRun
import Verif.Props.Control
import Verif.Lemmas.ServerList
import Verif.Props.ServerList
import Verif.Spec.GivenUp
import Verif.Lemmas.ServerCancel
import Verif.Props.GivenUp
import Verif.Props.Folders
import Verif.Model.ServerProps
import Verif.Lemmas.ServerProps
import Verif.Lemmas.ServerReads
import Verif.Spec.ServerProps
import Verif.Lemmas.ServerTold
import Verif.Props.ServerProps
import Verif.Spec.ServerCopy
import Verif.Lemmas.ServerCopied
import Verif.Props.ServerCopy
import Verif.Model.ServerLocal
import Verif.Spec.ServerLocal
import Verif.Lemmas.ServerLocal
import Verif.Props.ServerLocal
import Verif.Spec.Through
import Verif.Lemmas.Sim
import Verif.Lemmas.Fitting
import Verif.Model.Storages
import Verif.Model.StoragesStart
import Verif.Spec.Storages
import Verif.Lemmas.Storages
import Verif.Lemmas.StoragesSim
import Verif.Lemmas.StoragesRun
import Verif.Lemmas.StoragesStart
import Verif.Props.Storages
import Verif.Spec.Mixed
import Verif.Lemmas.Mixed
import Verif.Props.Mixed
import Verif.Model.ServerAcross
import Verif.Spec.ServerAcross
import Verif.Lemmas.ServerAcross
import Verif.Lemmas.ServerCopiedX
import Verif.Lemmas.ServerLeft
import Verif.Lemmas.ServerFull
import Verif.Props.Across
import Verif.Props.Full
import Verif.Model.ServerMoveAcross
import Verif.Spec.ServerMoveAcross
import Verif.Lemmas.ServerMoveAcross
import Verif.Lemmas.StoragesMove
import Verif.Props.MoveAcross
import Verif.Lemmas.ServerSet
import Verif.Props.ServerSet
import Verif.Props.ServerPropList
import Verif.Model.Device
import Verif.Spec.Device
import Verif.Lemmas.Device
import Verif.Lemmas.ServerConf
import Verif.Lemmas.DeviceInfo
import Verif.Props.DeviceRefs
import Verif.Props.DeviceProps
import Verif.Props.DeviceInfo
import Verif.Model.DeviceStart
import Verif.Spec.DeviceStart
import Verif.Lemmas.ServerIds
import Verif.Lemmas.DeviceStart
import Verif.Lemmas.DeviceRefs
import Verif.Props.DeviceStart
import Verif.Props.DeviceFound
import Verif.Spec.Whole
import Verif.Spec.WholeStart
import Verif.Lemmas.Whole
import Verif.Props.Whole
import Verif.Props.WholeStart
import Verif.Props.Restarted
import Verif.Props.WholeOps
