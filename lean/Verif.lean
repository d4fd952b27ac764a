import Verif.Spec
import Verif.Spec.Text
import Verif.Text
import Verif.Runtime
import Verif.Attr
import Verif.Refine
import Verif.TextProofs
import Verif.Model.Hytera.RadioIp
import Verif.Model.Hytera.RadioId
import Verif.Model.Hytera.Gpsdata
import Verif.Model.Hytera.Datetimestring
import Verif.Model.Hytera.Intervalstring
import Verif.Model.Hytera.DataDeliveryStates
import Verif.Model.Hytera.DataTransmitProtocol
import Verif.Model.Hytera.LocationProtocol
import Verif.Model.Hytera.RadioControlProtocol
import Verif.Model.Hytera.RadioRegistrationService
import Verif.Model.Hytera.TelemetryProtocol
import Verif.Model.Hytera.TextMessageProtocol
import Verif.Model.Hytera.HyteraDmrApplicationProtocol
import Verif.Model.Hytera.HyteraRadioNetworkProtocol
import Verif.Model.Hytera.HyteraSimpleTransportReliabilityProtocol
import Verif.Model.Hytera.IpSiteConnectHeartbeat
import Verif.Model.Hytera.IpSiteConnectProtocol
import Verif.Model.Hytera.RealTimeTransportProtocol
import Verif.Model.Etsi.DmrCsbk
import Verif.Model.Etsi.DmrData
import Verif.Model.Etsi.DmrDataHeader
import Verif.Model.Etsi.DmrIpUdp
import Verif.Model.Etsi.FullLinkControl
import Verif.Model.Homebrew.Homebrew2015
import Verif.Model.Homebrew.Mmdvm2020
import Verif.Model.Motorola.AutomaticRegistrationService
import Verif.Model.Motorola.MotorolaBinaryXml
import Verif.Model.Motorola.TextMessageProtocol
import Verif.Layout
import Verif.Enum
import Verif.Enums
import Verif.Spec.Parse
import Verif.Spec.Hytera
import Verif.Spec.Etsi
import Verif.Spec.Homebrew
import Verif.Spec.Motorola
import Verif.Layout.Hytera
import Verif.Layout.Etsi
import Verif.Layout.Homebrew
import Verif.Layout.Motorola
import Verif.Spec.HyteraVar
import Verif.Advance
import Verif.Layout.HyteraVar
import Verif.Layout.HyteraFrame
import Verif.Spec.EtsiVar
import Verif.Layout.EtsiVar
import Verif.Spec.HomebrewVar
import Verif.Layout.HomebrewVar
import Verif.Spec.MotorolaVar
import Verif.Layout.MotorolaVar
import Verif.Spec.Bits
import Verif.Props.Streams
import Verif.Props.Basics
import Verif.Props.Dispatch
import Verif.Props.HyteraMessages
import Verif.Props.HyteraMessages2
import Verif.Props.HyteraFrames
import Verif.Props.EtsiMessages
import Verif.Props.EtsiMessages2
import Verif.Props.HomebrewMessages
import Verif.RunAt
import Verif.Model.Motorola.MotorolaUtils
import Verif.Props.MotorolaNumbers
import Verif.Props.MotorolaFloats
import Verif.Props.MotorolaRounding
import Verif.Props.MotorolaMessages
import Verif.Local
import Verif.LocalAll
import Verif.LocalFrames
import Verif.LocalList
import Verif.Props.Streaming
import Verif.Errors
import Verif.ErrorsAll
import Verif.Props.Exceptions
import Verif.Props.ExceptionsExact
import Verif.Props.HyteraTransport
import Verif.Model.Tools.PyVal
import Verif.Model.Tools.PyView
import Verif.Model.Tools.Byteswap
import Verif.Model.Tools.Prettyprint
import Verif.Model.Lazy
import Verif.Model.Tools.Debug
import Verif.Props.Lazy
import Verif.Props.Byteswap
import Verif.Props.Prettyprint
import Verif.Props.PrettyprintLibrary
import Verif.Props.Debug
import Verif.Lossless
import Verif.LosslessAll
import Verif.LosslessOn
import Verif.LosslessList
import Verif.Props.Lossless
import Verif.Ksy.Attr
import Verif.Ksy.Lang
import Verif.Ksy.Schema
import Verif.Ksy.View
import Verif.Ksy.Conform.Base
import Verif.Ksy.Conform.All
import Verif.Ksy.Conform.AutomaticRegistrationService
import Verif.Ksy.Conform.DataDeliveryStates
import Verif.Ksy.Conform.DataTransmitProtocol
import Verif.Ksy.Conform.Datetimestring
import Verif.Ksy.Conform.DmrCsbk
import Verif.Ksy.Conform.DmrData
import Verif.Ksy.Conform.DmrDataHeader
import Verif.Ksy.Conform.DmrIpUdp
import Verif.Ksy.Conform.FullLinkControl
import Verif.Ksy.Conform.Gpsdata
import Verif.Ksy.Conform.Homebrew2015
import Verif.Ksy.Conform.HyteraDmrApplicationProtocol
import Verif.Ksy.Conform.HyteraRadioNetworkProtocol
import Verif.Ksy.Conform.HyteraSimpleTransportReliabilityProtocol
import Verif.Ksy.Conform.Instances
import Verif.Ksy.Conform.Intervalstring
import Verif.Ksy.Conform.IpSiteConnectHeartbeat
import Verif.Ksy.Conform.IpSiteConnectProtocol
import Verif.Ksy.Conform.LocationProtocol
import Verif.Ksy.Conform.Mmdvm2020
import Verif.Ksy.Conform.MotorolaBinaryXml
import Verif.Ksy.Conform.RadioControlProtocol
import Verif.Ksy.Conform.RadioId
import Verif.Ksy.Conform.RadioIp
import Verif.Ksy.Conform.RadioRegistrationService
import Verif.Ksy.Conform.RealTimeTransportProtocol
import Verif.Ksy.Conform.TelemetryProtocol
import Verif.Ksy.Conform.TextMessageProtocol
import Verif.Ksy.Conform.TextMessageProtocolMotorola
import Verif.Props.Schema
import Verif.Shift
import Verif.ShiftAll
import Verif.ShiftMore
import Verif.ShiftList
import Verif.Tidy
import Verif.TidyAll
import Verif.TidyList
import Verif.Props.Positions
import Verif.RepoTests
import Verif.Model.EnumNames
import Verif.EnumPairs
import Verif.Props.EnumNames
import Verif.Spec.Pack
import Verif.Pack
import Verif.Props.Encoders
import Verif.Props.Encoders2
import Verif.Spec.HyteraEncode
import Verif.Props.Encoders3
import Verif.Props.Decoders
import Verif.Props.Amount
import Verif.Model.Properties
import Verif.Props.Properties
import Verif.Props.PropertiesDecoded
import Verif.Grow
import Verif.GrowAll
import Verif.Props.Receiving
import Verif.Spec.EtsiEncode
import Verif.Spec.HomebrewEncode
import Verif.Unpack
import Verif.Props.DecodersEtsi
import Verif.Props.DecodersEtsi2
import Verif.Props.DecodersHomebrew
import Verif.Spec.MotorolaEncode
import Verif.Spec.TransportEncode
import Verif.Props.DecodersMotorola
import Verif.Props.DecodersTransport
import Verif.Props.Source
import Verif.Props.SourceProperties
import Verif.Props.Scripts
import Verif.Props.Commands
import Verif.Py.Same
import Verif.Props.SourceStreams
import Verif.Py.Injective
import Verif.Py.Shown
import Verif.Py.Told
import Verif.Py.Unique
import Verif.Props.SourceObjects
import Verif.Props.SourceWire
import Verif.Props.SourceHeader
import Verif.Props.SourceMemory
import Verif.Props.SourceOnce
import Verif.Props.SourceTime
import Verif.Props.SourceThreads
import Verif.Props.SourceShared
import Verif.Py.Client
import Verif.Py.ClientProofs
import Verif.Props.SourceClients
import Verif.Props.HomebrewPair
import Verif.Props.Telling
import Verif.Props.SourceDepth
import Verif.Props.LosslessText
import Verif.Props.Unverified
import Verif.Props.SamePosition
import Verif.Props.UnverifiedFrames
import Verif.Props.SourceRequests
import Verif.Py.Version
import Verif.Py.VersionPeek
import Verif.Py.VersionExec
import Verif.Py.VersionData
import Verif.Props.SourceVersion
import Verif.Py.Imports
import Verif.Py.ImportsProofs
import Verif.Py.ImportsOrder
import Verif.Py.ImportsSource
import Verif.Props.SourceImports
import Verif.Props.SourceReceiving
