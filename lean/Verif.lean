import Verif.Model.Basic
import Verif.Model.Misc
import Verif.Model.Esv
import Verif.Model.Property
import Verif.Model.Message
import Verif.Spec.Frame
import Verif.Spec.MessageApi
import Verif.Lemmas.Parse
import Verif.Lemmas.Bytes
import Verif.Lemmas.Int
import Verif.Lemmas.Copy
import Verif.Spec.Section
import Verif.Lemmas.Section
import Verif.Props.Message
import Verif.Props.Samples
import Verif.Spec.Values
import Verif.Props.Values
import Verif.Model.PropertyMap
import Verif.Model.PropertyList
import Verif.Model.Object
import Verif.Spec.PropertyMap
import Verif.Lemmas.PropertyMap
import Verif.Lemmas.Object
import Verif.Lemmas.Attr
import Verif.Model.Controller
import Verif.Model.Post
import Verif.Spec.ControllerApi
import Verif.Spec.PostApi
import Verif.Lemmas.Readable
import Verif.Lemmas.Controller
import Verif.Spec.ObjectApi
import Verif.Props.PropertyMap
import Verif.Props.Object
import Verif.Model.Device
import Verif.Model.Node
import Verif.Model.NodeListener
import Verif.Spec.Service
import Verif.Lemmas.Listener
import Verif.Lemmas.Reply
import Verif.Props.Listener
import Verif.Spec.NodeApi
import Verif.Lemmas.Node
import Verif.Props.Node
import Verif.Lemmas.Cache
import Verif.Lemmas.CtrlRecv
import Verif.Lemmas.Post
import Verif.Lemmas.PostDone
import Verif.Lemmas.PostTid
import Verif.Lemmas.PostExec
import Verif.Props.Controller
import Verif.Props.Post
import Verif.Model.CList
import Verif.Spec.Sequence
import Verif.Lemmas.CList
import Verif.Lemmas.CListRep
import Verif.Props.CList
import Verif.Model.CString
import Verif.Spec.Text
import Verif.Lemmas.CString
import Verif.Props.CString
import Verif.Model.Log
import Verif.Spec.Trace
import Verif.Lemmas.Log
import Verif.Props.Log
import Verif.Model.Socket
import Verif.Lemmas.Socket
import Verif.Props.Socket
import Verif.Model.Server
import Verif.Lemmas.Server
import Verif.Props.Server
import Verif.Model.Thread
import Verif.Props.Thread
import Verif.Model.Database
import Verif.Model.StdObjects
import Verif.Model.StdManufacturers
import Verif.Spec.StdTable
import Verif.Lemmas.Database
import Verif.Props.Database
import Verif.Spec.Remote
import Verif.Props.Remote
import Verif.Spec.Device
import Verif.Props.Device
import Verif.Model.Receive
import Verif.Spec.Receive
import Verif.Props.Receive
import Verif.Model.Race
import Verif.Spec.Race
import Verif.Props.Race
import Verif.Model.ListRace
import Verif.Spec.ListRace
import Verif.Props.ListRace
import Verif.Model.DiscoverRace
import Verif.Spec.DiscoverRace
import Verif.Props.DiscoverRace
import Verif.Model.Strings
import Verif.Spec.Strings
import Verif.Lemmas.Strings
import Verif.Props.Strings
import Verif.Spec.Network
import Verif.Lemmas.Network
import Verif.Lemmas.Listing
import Verif.Props.Network
import Verif.Model.Fd
import Verif.Spec.Fd
import Verif.Lemmas.Fd
import Verif.Lemmas.FdServer
import Verif.Lemmas.FdRun
import Verif.Props.Fd
import Verif.Props.FdStart
import Verif.Props.FdGrant
import Verif.Model.Heap
import Verif.Spec.Heap
import Verif.Lemmas.Heap
import Verif.Lemmas.HeapMsg
import Verif.Lemmas.HeapCalls
import Verif.Props.Heap
import Verif.Model.HeapNode
import Verif.Spec.HeapNode
import Verif.Lemmas.HeapFrame
import Verif.Lemmas.HeapObj
import Verif.Lemmas.HeapServer
import Verif.Lemmas.HeapNode
import Verif.Lemmas.HeapRecv
import Verif.Lemmas.HeapCtrl
import Verif.Spec.HeapApp
import Verif.Lemmas.HeapApp
import Verif.Props.HeapApp
import Verif.Props.Interface
import Verif.Props.Wait
import Verif.Props.Random
import Verif.Props.LogOutput
import Verif.Spec.Interface
import Verif.Spec.Wait
import Verif.Lemmas.Interface
import Verif.Model.Interface
import Verif.Model.LogOutput
import Verif.Model.Random
import Verif.Model.Wait
import Verif.Lemmas.PostLive
import Verif.Props.Compare
import Verif.Props.Keyed
import Verif.Props.StdDb
import Verif.Props.ThreadCtl
import Verif.Props.Tcp
import Verif.Props.MessageFields
import Verif.Props.Oom
import Verif.Props.PropertyFields
import Verif.Props.Getters
import Verif.Props.Infc
import Verif.Props.Search
import Verif.Props.Records
import Verif.Props.Receiver
import Verif.Props.NodeProfile
import Verif.Props.NodeFields
import Verif.Props.Maker
import Verif.Props.ControllerFields
import Verif.Props.ObjectSend
import Verif.Props.CtrlHistory
import Verif.Props.Growth
import Verif.Props.CtrlTid
import Verif.Props.Registered
import Verif.Props.OomObj
import Verif.Props.Alias
import Verif.Props.Light
import Verif.Props.PostCmd
import Verif.Props.Found
import Verif.Props.Signals
import Verif.Props.SearchCmd
import Verif.Props.Esp32
import Verif.Props.Esp32Cond
import Verif.Props.BenchCmd
import Verif.Props.SearchVals
import Verif.Spec.SearchLive
import Verif.Lemmas.SearchLive
import Verif.Props.SearchLive
import Verif.Props.Esp32If
import Verif.Model.DumpCmd
import Verif.Spec.DumpCmd
import Verif.Lemmas.DumpCmd
import Verif.Props.DumpCmd
import Verif.Model.ObjC
import Verif.Spec.ObjC
import Verif.Lemmas.ObjC
import Verif.Props.ObjC
import Verif.Props.ObjCCalls
import Verif.Model.LightMain
import Verif.Spec.LightMain
import Verif.Lemmas.LightMain
import Verif.Props.LightMain
import Verif.Model.HostServer
import Verif.Spec.HostServer
import Verif.Props.HostServer
import Verif.Spec.Talk
import Verif.Lemmas.Talk
import Verif.Props.Talk
import Verif.Model.LightEsp
import Verif.Spec.LightEsp
import Verif.Props.LightEsp
import Verif.Model.Esp32Recv
import Verif.Props.Esp32Recv
import Verif.Model.OomLists
import Verif.Props.OomLists
import Verif.Model.OomRecv
import Verif.Props.OomRecv
