import Verif.Props.FrameControl
import Verif.Props.Addressing
import Verif.Props.Address
import Verif.Props.IeFields
import Verif.Props.IeContent
import Verif.Props.IeList
import Verif.Props.Tsch
import Verif.Props.Frames
import Verif.Props.Crc
import Verif.Props.Macro
import Verif.Props.Beacon
import Verif.Props.StdBeacon
import Verif.Props.SecurityHeader
import Verif.Props.Reserved
import Verif.Props.Names
import Verif.Props.Repr
import Verif.Props.Reemit
import Verif.Model.Fuzz
import Verif.Props.ParseExact
import Verif.Props.Fuzz
import Verif.Props.EmitExact
import Verif.Props.Builder
import Verif.Props.Emit
import Verif.Props.Reuse
import Verif.Spec.Layout
import Verif.Props.Layout
import Verif.Props.Appended
import Verif.Props.ParseSafe
import Verif.Props.Mutex
import Verif.Props.Channel
import Verif.Props.Ledger
import Verif.Props.Protected
import Verif.Props.Backoff
import Verif.Props.Futures
import Verif.Props.Radio
import Verif.Props.CsmaFrames
import Verif.Props.CsmaReceive
import Verif.Props.CsmaTransmit
import Verif.Props.CsmaPackage
import Verif.Props.CsmaDevice
import Verif.Props.CsmaLock
import Verif.Props.CsmaCalls
import Verif.Props.Phy
import Verif.Props.Time
import Verif.Props.Build
import Verif.Model.Generated
import Verif.Props.Defaults
import Verif.Props.Cat
import Verif.Props.CsmaFair
import Verif.Props.Display
import Verif.Props.Timings
import Verif.Props.Exchange
import Verif.Props.EndToEnd
import Verif.Props.CsmaListen
import Verif.Props.Parse
import Verif.Props.IeCodes
import Verif.Props.SecuredAck
import Verif.Props.Delivery
import Verif.Model.ReprPanic
import Verif.Props.PanicFeature
import Verif.Spec.IeWire
import Verif.Props.IeWire
import Verif.Props.Latency
import Verif.Upstream.Frame
import Verif.Model.Text
import Verif.Spec.Text
import Verif.Props.Text
import Verif.Upstream.Cat
import Verif.Upstream.Csma
import Verif.Upstream.Sync
import Verif.Spec.Printed
import Verif.Lemmas.Text
import Verif.Props.Printed
import Verif.Model.Reenter
import Verif.Props.Reenter
import Verif.Model.Drops
import Verif.Model.DeviceRadio
import Verif.Spec.DeviceRadio
import Verif.Lemmas.Drops
import Verif.Props.DeviceRadio
import Verif.Spec.Network
import Verif.Props.Network
import Verif.Props.Origin
import Verif.Spec.Traffic
import Verif.Props.Traffic
import Verif.Model.Arbitrary
import Verif.Spec.Arbitrary
import Verif.Props.Arbitrary
import Verif.Spec.CsmaCa
import Verif.Spec.Filter
import Verif.Spec.AckKind
import Verif.Props.CsmaCa
import Verif.Props.Filter
import Verif.Props.AckKind
import Verif.Props.Truncated
import Verif.Props.Lengthened
import Verif.Props.BeaconBounds
import Verif.Spec.Copies
import Verif.Props.Copies
import Verif.Spec.Ordered
import Verif.Props.Ordered
import Verif.Props.EmitFlags
import Verif.Spec.Delivered
import Verif.Props.Delivered
