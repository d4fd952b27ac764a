import Verif.Py.Source.DataDeliveryStates
import Verif.Py.Source.DataTransmitProtocol
import Verif.Py.Source.Datetimestring
import Verif.Py.Source.Gpsdata
import Verif.Py.Source.HyteraDmrApplicationProtocol
import Verif.Py.Source.HyteraRadioNetworkProtocol
import Verif.Py.Source.HyteraSimpleTransportReliabilityProtocol
import Verif.Py.Source.Intervalstring
import Verif.Py.Source.IpSiteConnectHeartbeat
import Verif.Py.Source.IpSiteConnectProtocol
import Verif.Py.Source.LocationProtocol
import Verif.Py.Source.RadioControlProtocol
import Verif.Py.Source.RadioId
import Verif.Py.Source.RadioIp
import Verif.Py.Source.RadioRegistrationService
import Verif.Py.Source.RealTimeTransportProtocol
import Verif.Py.Source.TelemetryProtocol
import Verif.Py.Source.TextMessageProtocol
import Verif.Py.Source.DmrCsbk
import Verif.Py.Source.DmrData
import Verif.Py.Source.DmrDataHeader
import Verif.Py.Source.DmrIpUdp
import Verif.Py.Source.FullLinkControl
import Verif.Py.Source.Homebrew2015
import Verif.Py.Source.Mmdvm2020
import Verif.Py.Source.AutomaticRegistrationService
import Verif.Py.Source.MotorolaBinaryXml
import Verif.Py.Source.TextMessageProtocolMotorola
import Verif.Py.Semantics
/-
Generated by tools/mkpyast.py: the library.
-/

namespace Dmr.Py

open Source

/-- okdmr/kaitai/{etsi,homebrew,hytera,motorola}/*.py -/
def files : List File :=
  [Hytera.DataDeliveryStates.file,
   Hytera.DataTransmitProtocol.file,
   Hytera.Datetimestring.file,
   Hytera.Gpsdata.file,
   Hytera.HyteraDmrApplicationProtocol.file,
   Hytera.HyteraRadioNetworkProtocol.file,
   Hytera.HyteraSimpleTransportReliabilityProtocol.file,
   Hytera.Intervalstring.file,
   Hytera.IpSiteConnectHeartbeat.file,
   Hytera.IpSiteConnectProtocol.file,
   Hytera.LocationProtocol.file,
   Hytera.RadioControlProtocol.file,
   Hytera.RadioId.file,
   Hytera.RadioIp.file,
   Hytera.RadioRegistrationService.file,
   Hytera.RealTimeTransportProtocol.file,
   Hytera.TelemetryProtocol.file,
   Hytera.TextMessageProtocol.file,
   Etsi.DmrCsbk.file,
   Etsi.DmrData.file,
   Etsi.DmrDataHeader.file,
   Etsi.DmrIpUdp.file,
   Etsi.FullLinkControl.file,
   Homebrew.Homebrew2015.file,
   Homebrew.Mmdvm2020.file,
   Motorola.AutomaticRegistrationService.file,
   Motorola.MotorolaBinaryXml.file,
   Motorola.TextMessageProtocol.file]

/-- The classes and enumerations of these files. -/
def library : Program where
  classes := (files.map File.classes).flatten
  enums := (files.map File.enums).flatten

end Dmr.Py
