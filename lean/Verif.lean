import Verif.Lemmas.Addresses
import Verif.Lemmas.Brackets
import Verif.Lemmas.Callers
import Verif.Lemmas.Calls
import Verif.Lemmas.Client
import Verif.Lemmas.ClientInv
import Verif.Lemmas.Dib
import Verif.Lemmas.Emi
import Verif.Lemmas.F32
import Verif.Lemmas.Float
import Verif.Lemmas.Frames
import Verif.Lemmas.GExec
import Verif.Lemmas.Gateway
import Verif.Lemmas.Invariants
import Verif.Lemmas.Invariants2
import Verif.Lemmas.Invariants3
import Verif.Lemmas.Monitor
import Verif.Lemmas.MonitorInv
import Verif.Lemmas.Notify
import Verif.Lemmas.Pairing
import Verif.Lemmas.Prim
import Verif.Lemmas.Runs
import Verif.Lemmas.Session
import Verif.Lemmas.Texts
import Verif.Lemmas.Timing
import Verif.Lemmas.Transport
import Verif.Model.Addresses
import Verif.Model.Apdu
import Verif.Model.Callers
import Verif.Model.Client
import Verif.Model.Construct
import Verif.Model.Core
import Verif.Model.Discover
import Verif.Model.DpTexts
import Verif.Model.DpTypes
import Verif.Model.DpUnused
import Verif.Model.Emi
import Verif.Model.F32
import Verif.Model.Feature
import Verif.Model.Monitor
import Verif.Model.PacketTexts
import Verif.Model.Parse
import Verif.Model.Prim
import Verif.Model.Sample
import Verif.Model.Search
import Verif.Model.Texts
import Verif.Model.Transport
import Verif.Model.Tunneling
import Verif.Props.Acks
import Verif.Props.AddressTexts
import Verif.Props.Addresses
import Verif.Props.Addressing
import Verif.Props.Again
import Verif.Props.Answers
import Verif.Props.ApduSame
import Verif.Props.Arithmetic
import Verif.Props.Arrivals
import Verif.Props.AtOnce
import Verif.Props.Beat
import Verif.Props.Beats
import Verif.Props.Builds
import Verif.Props.Built
import Verif.Props.BusFrames
import Verif.Props.Callers
import Verif.Props.Calls
import Verif.Props.Claims
import Verif.Props.Client
import Verif.Props.Construct
import Verif.Props.Conversations
import Verif.Props.Crowd
import Verif.Props.CutCemi
import Verif.Props.CutResponses
import Verif.Props.Cuts
import Verif.Props.Deadly
import Verif.Props.Dib
import Verif.Props.Discover
import Verif.Props.Distinct
import Verif.Props.DistinctFrames
import Verif.Props.DpFloat
import Verif.Props.DpInt
import Verif.Props.DpMore
import Verif.Props.DpUnused
import Verif.Props.Dropped
import Verif.Props.Effects
import Verif.Props.Emi
import Verif.Props.EmiExact
import Verif.Props.EndToEnd
import Verif.Props.Endpoint
import Verif.Props.Exact
import Verif.Props.Fate
import Verif.Props.Faults
import Verif.Props.Feature
import Verif.Props.Flaws
import Verif.Props.Frames
import Verif.Props.Gateway
import Verif.Props.Idle
import Verif.Props.Ignored
import Verif.Props.Late
import Verif.Props.Layouts
import Verif.Props.Memory
import Verif.Props.Messages
import Verif.Props.Monitor
import Verif.Props.MonitorLife
import Verif.Props.MonitorReasons
import Verif.Props.Order
import Verif.Props.Origin
import Verif.Props.Own
import Verif.Props.Pauses
import Verif.Props.Programs
import Verif.Props.Reasons
import Verif.Props.Reconnect
import Verif.Props.Recovery
import Verif.Props.Replied
import Verif.Props.Search
import Verif.Props.SearchMessages
import Verif.Props.SearchSocket
import Verif.Props.Services
import Verif.Props.Session
import Verif.Props.Slots
import Verif.Props.Stall
import Verif.Props.Stories
import Verif.Props.Subscribers
import Verif.Props.Temperature
import Verif.Props.Timing
import Verif.Props.Traffic
import Verif.Props.Transport
import Verif.Props.Turns
import Verif.Props.UnitTests
import Verif.Props.Values
import Verif.Props.Whole
import Verif.Props.Wire
import Verif.Spec.Addresses
import Verif.Spec.Addressing
import Verif.Spec.Beat
import Verif.Spec.Builds
import Verif.Spec.Bus
import Verif.Spec.BusFrames
import Verif.Spec.Bytes
import Verif.Spec.Callers
import Verif.Spec.Claims
import Verif.Spec.Construct
import Verif.Spec.Conversations
import Verif.Spec.Crowd
import Verif.Spec.Cuts
import Verif.Spec.Dib
import Verif.Spec.Dpt9
import Verif.Spec.Effects
import Verif.Spec.Emi
import Verif.Spec.Endpoint
import Verif.Spec.Exec
import Verif.Spec.Fate
import Verif.Spec.Faults
import Verif.Spec.Feature
import Verif.Spec.Flaws
import Verif.Spec.Frames
import Verif.Spec.Gateway
import Verif.Spec.Late
import Verif.Spec.Layouts
import Verif.Spec.Lively
import Verif.Spec.Memory
import Verif.Spec.Messages
import Verif.Spec.Monitor
import Verif.Spec.MonitorStories
import Verif.Spec.Origin
import Verif.Spec.Owed
import Verif.Spec.Own
import Verif.Spec.Programs
import Verif.Spec.Recovery
import Verif.Spec.Replied
import Verif.Spec.Report
import Verif.Spec.Search
import Verif.Spec.SearchFlaws
import Verif.Spec.Served
import Verif.Spec.Services
import Verif.Spec.Slots
import Verif.Spec.Stall
import Verif.Spec.Stories
import Verif.Spec.Telegrams
import Verif.Spec.Trace
import Verif.Spec.Turns
import Verif.Spec.Whole
import Verif.Spec.Wire
