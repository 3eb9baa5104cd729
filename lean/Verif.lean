import Verif.Rust
import Verif.Model.Tables
import Verif.Model.Buffer
import Verif.Model.Ether
import Verif.Model.Sum
import Verif.Model.Options
import Verif.Model.V4
import Verif.Model.Ip
import Verif.Model.Udp
import Verif.Model.Tcp
import Verif.Model.Icmp
import Verif.Model.Builders
import Verif.Samples
import Verif.Spec.Bits
import Verif.Spec.Checksum
import Verif.Lemmas.Bits
import Verif.Lemmas.Sum
import Verif.Lemmas.V4
import Verif.Lemmas.Checksum
import Verif.Lemmas.Transport
import Verif.Props.Checksum
import Verif.Props.Edits
import Verif.Props.Ether
import Verif.Props.V4
import Verif.Props.Transport
import Verif.Props.Options
import Verif.Props.Icmp
import Verif.Spec.Numbers
import Verif.Spec.Layers
import Verif.Lemmas.Buffer
import Verif.Props.Enums
import Verif.Props.Finalizer
import Verif.Props.Buffer
import Verif.Spec.Options
import Verif.Spec.Wire
import Verif.Spec.History
import Verif.Model.Programs
import Verif.Lemmas.Builders
import Verif.Lemmas.BuildV4
import Verif.Lemmas.BuildUdp
import Verif.Lemmas.BuildTcp
import Verif.Lemmas.BuildIcmp
import Verif.Lemmas.Views
import Verif.Lemmas.BuildTotal
import Verif.Lemmas.BuildProg
import Verif.Lemmas.History
import Verif.Props.Verify
import Verif.Props.Builders
import Verif.Props.BuildersTransport
import Verif.Props.BuildersIcmp
import Verif.Props.BuildersStack
import Verif.Props.RawPayload
import Verif.Props.BuildersRules
import Verif.Props.BuildersPanics
import Verif.Props.BuildersSize
import Verif.Props.BuildersSlice
import Verif.Props.BuildersView
import Verif.Model.Kinds
import Verif.Model.Debug
import Verif.Props.Sizes
import Verif.Props.Stack
import Verif.Props.Debug
import Verif.Model.UserFinalizers
import Verif.Props.Burst
import Verif.Props.UserFinalizers
import Verif.Props.Padding
import Verif.Props.Large
import Verif.Props.Replies
import Verif.Props.SizesTight
import Verif.Props.Reparse
import Verif.Props.WriteBack
import Verif.Props.Unchecked
import Verif.Props.OptionsPacket
import Verif.Props.BuilderWords
import Verif.Props.Rebuild
import Verif.Props.Nested
import Verif.Props.Readdress
import Verif.Spec.Encode
import Verif.Props.Encode
import Verif.Props.Sessions
import Verif.Spec.Static
import Verif.Props.StaticPayload
import Verif.Model.Storage
import Verif.Props.Storage
import Verif.Props.LateCalls
import Verif.Props.OptionSizes
import Verif.Props.OptionWrites
import Verif.Props.Typed
import Verif.Props.Exact
import Verif.Props.Mutable
import Verif.Conformance.UnitTests
import Verif.Spec.AnyBuffer
import Verif.Lemmas.AnyBuffer
import Verif.Lemmas.AnyBufferStep
import Verif.Lemmas.AnyBufferProg
import Verif.Props.AnyBuffer
import Verif.Lemmas.NestedBuild
import Verif.Props.NestedBuild
import Verif.Props.Missed
import Verif.Props.Behind
import Verif.Props.Image
import Verif.Props.Reach
import Verif.Props.Short
import Verif.Props.ShortTcp
import Verif.Model.Unwind
import Verif.Props.Unwind
import Verif.Spec.Incremental
import Verif.Props.Incremental
import Verif.Spec.Profiles
import Verif.Lemmas.Profiles
import Verif.Lemmas.ProfileBuilders
import Verif.Lemmas.ProfilePrograms
import Verif.Props.Profiles
import Verif.Props.Widths
import Verif.Model.Iterators
import Verif.Spec.Iterators
import Verif.Lemmas.Iterators
import Verif.Props.Iterators
import Verif.Model.Equality
import Verif.Props.Equality
import Verif.Model.Defaults
import Verif.Props.Defaults
import Verif.Spec.Flags
import Verif.Model.Flags
import Verif.Props.Flags
import Verif.Spec.Quotes
import Verif.Props.Quotes
import Verif.Props.Forward
import Verif.Spec.Faults
import Verif.Props.Faults
import Verif.Props.Translate
import Verif.Spec.StaticFaults
import Verif.Props.StaticFaults
import Verif.Props.Network
import Verif.Props.Ping
import Verif.Props.Lan
import Verif.Props.Streams
import Verif.Props.Reassembly
import Verif.Props.Dissect
import Verif.Props.Service
import Verif.Props.Reset
import Verif.Props.Exchange
import Verif.Props.Gateway
import Verif.Props.Masquerade
