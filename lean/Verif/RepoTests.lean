import Verif.Model.Hytera.HyteraSimpleTransportReliabilityProtocol
import Verif.Model.Hytera.HyteraRadioNetworkProtocol
import Verif.Model.Hytera.IpSiteConnectProtocol
import Verif.Model.Etsi.DmrCsbk
import Verif.Model.Etsi.DmrDataHeader
import Verif.Model.Etsi.FullLinkControl
import Verif.Model.Homebrew.Mmdvm2020
import Verif.Model.Motorola.AutomaticRegistrationService
import Verif.Model.Motorola.TextMessageProtocol
import Verif.Model.Motorola.MotorolaBinaryXml
import Verif.Model.Motorola.MotorolaUtils
import Verif.Model.Lazy
/-
The messages in the unit tests of the repository, decoded by the model (generated by tools/mkrepotests.py; a check of the model, not
proofs of properties).
-/

namespace Dmr

/-! ### Accepted messages -/

/-- okdmr/tests/kaitai/etsi/test_dmr_csbk.py:10 -/
example : (fromBytes Etsi.DmrCsbk.read [0xbd, 0x00, 0x80, 0x18, 0x00, 0x08, 0xfd, 0x23, 0x38, 0x3b, 0xb2, 0xed]).toBool = true := by decide +kernel

/-- okdmr/tests/kaitai/etsi/test_dmr_header.py:9 -/
example : (fromBytes Etsi.DmrDataHeader.read [0x4d, 0xa3, 0x23, 0x38, 0x3b, 0x23, 0x38, 0x3b, 0x05, 0x60, 0x80, 0x40]).toBool = true := by decide +kernel

/-- okdmr/tests/kaitai/etsi/test_full_link_control.py:6 -/
example : (fromBytes Etsi.FullLinkControl.read [0x00, 0x00, 0x00, 0x00, 0x00, 0x09, 0x28, 0x07, 0x22, 0x50, 0x47, 0x78]).toBool = true := by decide +kernel

/-- okdmr/tests/kaitai/etsi/test_full_link_control.py:18 -/
example : (fromBytes Etsi.FullLinkControl.read [0x00, 0x00, 0x00, 0x00, 0x08, 0x65, 0x20, 0xba, 0xf8, 0x88]).toBool = true := by decide +kernel

/-- okdmr/tests/kaitai/hytera/test_data_delivery_states.py:10 -/
example : (fromBytes Hytera.DataDeliveryStates.read [0x14, 0x00, 0x08, 0x00, 0x07, 0x00, 0x03, 0x64, 0x0e, 0xa0, 0x01, 0x00, 0x0d, 0x03]).toBool = true := by decide +kernel

/-- okdmr/tests/kaitai/hytera/test_hdap.py:12 -/
example : (fromBytes Hytera.HyteraDmrApplicationProtocol.read [0x11, 0x00, 0x03, 0x00, 0x04, 0x0a, 0x23, 0x38, 0x63, 0x63, 0x03]).toBool = true := by decide +kernel

/-- okdmr/tests/kaitai/hytera/test_hdap.py:14 -/
example : (fromBytes Hytera.HyteraDmrApplicationProtocol.read [0x11, 0x00, 0x80, 0x00, 0x09, 0x0a, 0x23, 0x38, 0x63, 0x00, 0x00, 0x00, 0x07, 0x08, 0xd2, 0x03]).toBool = true := by decide +kernel

/-- okdmr/tests/kaitai/hytera/test_hdap.py:16 -/
example : (fromBytes Hytera.HyteraDmrApplicationProtocol.read [0x08, 0xa0, 0x03, 0x00, 0x34, 0x00, 0x00, 0x00, 0x00, 0x0a, 0x23, 0x38, 0x63, 0x00, 0x00, 0x41, 0x31, 0x31, 0x32, 0x35, 0x34, 0x30, 0x32, 0x37, 0x30, 0x39, 0x32, 0x31, 0x4e, 0x35, 0x30, 0x30, 0x33, 0x2e, 0x38, 0x37, 0x34, 0x36, 0x45, 0x30, 0x31, 0x34, 0x32, 0x36, 0x2e, 0x35, 0x31, 0x39, 0x32, 0x30, 0x2e, 0x32, 0x32, 0x35, 0x33, 0xff, 0x1c, 0xae, 0x03]).toBool = true := by decide +kernel

/-- okdmr/tests/kaitai/hytera/test_hdap.py:18 -/
example : (fromBytes Hytera.HyteraDmrApplicationProtocol.read [0x09, 0x80, 0xa1, 0x00, 0x22, 0x00, 0x00, 0x00, 0x01, 0x0a, 0x01, 0xb2, 0x07, 0x0a, 0x03, 0x64, 0x0e, 0x4f, 0x00, 0x4c, 0x00, 0x49, 0x00, 0x56, 0x00, 0x45, 0x00, 0x52, 0x00, 0x20, 0x00, 0x54, 0x00, 0x45, 0x00, 0x53, 0x00, 0x54, 0x00, 0x7a, 0x03]).toBool = true := by decide +kernel

/-- okdmr/tests/kaitai/hytera/test_hrnp.py:10 -/
example : (fromBytes Hytera.HyteraRadioNetworkProtocol.read [0x7e, 0x04, 0x00, 0xfe, 0x20, 0x10, 0x00, 0x00, 0x00, 0x0c, 0x60, 0xe1]).toBool = true := by decide +kernel

/-- okdmr/tests/kaitai/hytera/test_hrnp.py:11 -/
example : (fromBytes Hytera.HyteraRadioNetworkProtocol.read [0x7e, 0x03, 0x00, 0xfe, 0x20, 0x10, 0x00, 0x00, 0x00, 0x0c, 0x60, 0xe2]).toBool = true := by decide +kernel

/-- okdmr/tests/kaitai/hytera/test_hrnp.py:13 -/
example : (fromBytes Hytera.HyteraRadioNetworkProtocol.read [0x7e, 0x04, 0x00, 0x00, 0x20, 0x10, 0x00, 0x01, 0x00, 0x18, 0x9b, 0x60, 0x02, 0x04, 0x00, 0x05, 0x00, 0x64, 0x00, 0x00, 0x00, 0x01, 0xc4, 0x03]).toBool = true := by decide +kernel

/-- okdmr/tests/kaitai/hytera/test_hrnp.py:15 -/
example : (fromBytes Hytera.HyteraRadioNetworkProtocol.read [0x7e, 0x04, 0x00, 0xfd, 0x10, 0x20, 0x00, 0x00, 0x00, 0x0c, 0x70, 0xd2]).toBool = true := by decide +kernel

/-- okdmr/tests/kaitai/hytera/test_hrnp.py:17 -/
example : (fromBytes Hytera.HyteraRadioNetworkProtocol.read [0x7e, 0x03, 0x00, 0x00, 0x20, 0x10, 0x00, 0x00, 0x00, 0x18, 0xfe, 0xfe, 0x02, 0xc9, 0x10, 0x05, 0x00, 0x02, 0x00, 0x01, 0x01, 0x01, 0x4f, 0x03, 0x7e, 0x04, 0x00, 0x00, 0x10, 0x20, 0x00, 0x01, 0x00, 0x19, 0xd6, 0x24, 0x02, 0x04, 0x80, 0x06, 0x00, 0x00, 0x0f, 0x69, 0x06, 0x00, 0x01, 0x29, 0x03]).toBool = true := by decide +kernel

/-- okdmr/tests/kaitai/hytera/test_hrnp.py:19 -/
example : (fromBytes Hytera.HyteraRadioNetworkProtocol.read [0x7e, 0x04, 0x00, 0x00, 0x10, 0x20, 0x00, 0x03, 0x00, 0xe1, 0xc6, 0x57, 0x02, 0xd4, 0x82, 0xce, 0x00, 0x00, 0x0f, 0x69, 0x06, 0x00, 0x02, 0x00, 0x44, 0x00, 0x39, 0x00, 0x2e, 0x00, 0x30, 0x00, 0x30, 0x00, 0x2e, 0x00, 0x30, 0x00, 0x37, 0x00, 0x2e, 0x00, 0x32, 0x00, 0x31, 0x00, 0x30, 0x00, 0x2e, 0x00, 0x69, 0x00, 0x4d, 0x00, 0x00, 0x00, 0x41, 0x00, 0x39, 0x00, 0x2e, 0x00, 0x30, 0x00, 0x30, 0x00, 0x2e, 0x00, 0x30, 0x00, 0x38, 0x00, 0x2e, 0x00, 0x33, 0x00, 0x30, 0x00, 0x38, 0x00, 0x2e, 0x00, 0x69, 0x00, 0x4d, 0x00, 0x00, 0x00, 0x4f, 0x00, 0x4b, 0x00, 0x30, 0x00, 0x44, 0x00, 0x4d, 0x00, 0x52, 0x00, 0x00, 0x00, 0x00, 0x00, 0x00, 0x00, 0x00, 0x00, 0x00, 0x00, 0x00, 0x00, 0x00, 0x00, 0x00, 0x00, 0x00, 0x00, 0x00, 0x00, 0x52, 0x00, 0x44, 0x00, 0x39, 0x00, 0x38, 0x00, 0x35, 0x00, 0x2d, 0x00, 0x30, 0x00, 0x30, 0x00, 0x30, 0x00, 0x30, 0x00, 0x30, 0x00, 0x30, 0x00, 0x30, 0x00, 0x30, 0x00, 0x2d, 0x00, 0x30, 0x00, 0x30, 0x00, 0x30, 0x00, 0x30, 0x00, 0x30, 0x00, 0x30, 0x00, 0x2d, 0x00, 0x55, 0x00, 0x31, 0x00, 0x2d, 0x00, 0x30, 0x00, 0x2d, 0x00, 0x46, 0x00, 0x00, 0x00, 0x00, 0x00, 0x00, 0x00, 0x00, 0x00, 0x31, 0x00, 0x32, 0x00, 0x33, 0x00, 0x32, 0x00, 0x30, 0x00, 0x41, 0x00, 0x30, 0x00, 0x33, 0x00, 0x31, 0x00, 0x32, 0x00, 0x00, 0x00, 0x00, 0x00, 0x00, 0x00, 0x00, 0x00, 0x00, 0x00, 0x00, 0x00, 0x0f, 0x69, 0x06, 0x00, 0x00, 0x00, 0x00, 0x1b, 0x03]).toBool = true := by decide +kernel

/-- okdmr/tests/kaitai/hytera/test_hrnp.py:20 -/
example : (fromBytes Hytera.HyteraRadioNetworkProtocol.read [0x7e, 0x04, 0x00, 0x00, 0x20, 0x10, 0x00, 0x00, 0x00, 0x18, 0x73, 0x89, 0x02, 0x41, 0x08, 0x05, 0x00, 0x00, 0x6f, 0x00, 0x00, 0x00, 0x75, 0x03]).toBool = true := by decide +kernel

/-- okdmr/tests/kaitai/hytera/test_hstrp.py:12 -/
example : (fromBytes Hytera.HyteraSimpleTransportReliabilityProtocol.read [0x32, 0x42, 0x00, 0x02, 0x00, 0x00]).toBool = true := by decide +kernel

/-- okdmr/tests/kaitai/hytera/test_hstrp.py:14 -/
example : (fromBytes Hytera.HyteraSimpleTransportReliabilityProtocol.read [0x32, 0x42, 0x00, 0x24, 0x00, 0x00, 0x83, 0x04, 0x00, 0x01, 0x86, 0x9f, 0x04, 0x01, 0x02]).toBool = true := by decide +kernel

/-- okdmr/tests/kaitai/hytera/test_hstrp.py:16 -/
example : (fromBytes Hytera.HyteraSimpleTransportReliabilityProtocol.read [0x32, 0x42, 0x00, 0x01, 0x00, 0x03]).toBool = true := by decide +kernel

/-- okdmr/tests/kaitai/hytera/test_hstrp.py:18 -/
example : (fromBytes Hytera.HyteraSimpleTransportReliabilityProtocol.read [0x32, 0x42, 0x00, 0x20, 0x00, 0x3c, 0x83, 0x04, 0x00, 0x01, 0x86, 0x9f, 0x04, 0x01, 0x02, 0x02, 0x45, 0xb8, 0x10, 0x00, 0x00, 0x00, 0x04, 0x00, 0x02, 0x00, 0x01, 0x00, 0x10, 0x27, 0x00, 0x00, 0x64, 0x00, 0x00, 0x00, 0x83, 0x03]).toBool = true := by decide +kernel

/-- okdmr/tests/kaitai/hytera/test_hstrp.py:20 -/
example : (fromBytes Hytera.HyteraSimpleTransportReliabilityProtocol.read [0x32, 0x42, 0x00, 0x20, 0x00, 0x03, 0x83, 0x04, 0x00, 0x01, 0x86, 0x9f, 0x04, 0x01, 0x02, 0x09, 0x00, 0xb1, 0x00, 0x18, 0x00, 0x00, 0x00, 0x01, 0x00, 0x00, 0x27, 0x10, 0x00, 0x00, 0x00, 0x64, 0x48, 0x00, 0x65, 0x00, 0x6c, 0x00, 0x6c, 0x00, 0x6f, 0x00, 0x21, 0x00, 0xb8, 0x03]).toBool = true := by decide +kernel

/-- okdmr/tests/kaitai/hytera/test_hstrp.py:22 -/
example : (fromBytes Hytera.HyteraSimpleTransportReliabilityProtocol.read [0x32, 0x42, 0x00, 0x20, 0x00, 0x35, 0x83, 0x04, 0x00, 0x01, 0x86, 0x9f, 0x04, 0x01, 0x01, 0x02, 0x45, 0xb8, 0x10, 0x00, 0x00, 0x00, 0x04, 0x00, 0x02, 0x00, 0x01, 0x00, 0x20, 0x4e, 0x00, 0x00, 0x64, 0x00, 0x00, 0x00, 0x4c, 0x03]).toBool = true := by decide +kernel

/-- okdmr/tests/kaitai/hytera/test_hstrp.py:24 -/
example : (fromBytes Hytera.HyteraSimpleTransportReliabilityProtocol.read [0x32, 0x42, 0x00, 0x20, 0x00, 0x03, 0x83, 0x04, 0x00, 0x01, 0x86, 0x9f, 0x04, 0x01, 0x01, 0x09, 0x00, 0xb1, 0x00, 0x1c, 0x00, 0x00, 0x00, 0x02, 0x00, 0x00, 0x4e, 0x20, 0x00, 0x00, 0x00, 0x64, 0x57, 0x00, 0x65, 0x00, 0x6c, 0x00, 0x63, 0x00, 0x6f, 0x00, 0x6d, 0x00, 0x65, 0x00, 0x21, 0x00, 0xa4, 0x03]).toBool = true := by decide +kernel

/-- okdmr/tests/kaitai/hytera/test_hstrp.py:26 -/
example : (fromBytes Hytera.HyteraSimpleTransportReliabilityProtocol.read [0x32, 0x42, 0x00, 0x00, 0x00, 0x01, 0x09, 0x01, 0xa1, 0x00, 0x26, 0x30, 0x00, 0x00, 0x01, 0x0a, 0x00, 0x00, 0x64, 0x0a, 0x01, 0x86, 0x9f, 0x52, 0x00, 0x52, 0x00, 0x53, 0x00, 0x20, 0x00, 0x77, 0x00, 0x61, 0x00, 0x69, 0x00, 0x74, 0x00, 0x20, 0x00, 0x6f, 0x00, 0x76, 0x00, 0x65, 0x00, 0x72, 0x00, 0xf4, 0x03]).toBool = true := by decide +kernel

/-- okdmr/tests/kaitai/hytera/test_hstrp.py:28 -/
example : (fromBytes Hytera.HyteraSimpleTransportReliabilityProtocol.read [0x32, 0x42, 0x00, 0x20, 0x00, 0x01, 0x83, 0x04, 0x00, 0x01, 0x86, 0x9f, 0x04, 0x01, 0x02, 0x09, 0x00, 0xa2, 0x00, 0x0d, 0x30, 0x00, 0x00, 0x01, 0x00, 0x00, 0x00, 0x64, 0x00, 0x01, 0x86, 0x9f, 0x00, 0xc8, 0x03]).toBool = true := by decide +kernel

/-- okdmr/tests/kaitai/hytera/test_hstrp.py:30 -/
example : (fromBytes Hytera.HyteraSimpleTransportReliabilityProtocol.read [0x32, 0x42, 0x00, 0x20, 0x00, 0x01, 0x83, 0x04, 0x00, 0x01, 0x86, 0x9f, 0x04, 0x01, 0x01, 0x09, 0x00, 0xa2, 0x00, 0x0d, 0x30, 0x00, 0x00, 0x02, 0x00, 0x00, 0x00, 0x64, 0x00, 0x01, 0x86, 0x9f, 0x00, 0xc7, 0x03]).toBool = true := by decide +kernel

/-- okdmr/tests/kaitai/hytera/test_hstrp.py:32 -/
example : (fromBytes Hytera.HyteraSimpleTransportReliabilityProtocol.read [0x32, 0x42, 0x00, 0x20, 0x00, 0x07, 0x83, 0x04, 0x00, 0x01, 0x86, 0x9f, 0x04, 0x01, 0x02, 0x02, 0x45, 0xb8, 0x10, 0x00, 0x00, 0x00, 0x05, 0x00, 0x02, 0x00, 0x00, 0x00, 0x64, 0x00, 0x00, 0x00, 0x9f, 0x86, 0x01, 0x00, 0x94, 0x03]).toBool = true := by decide +kernel

/-- okdmr/tests/kaitai/hytera/test_hstrp.py:34 -/
example : (fromBytes Hytera.HyteraSimpleTransportReliabilityProtocol.read [0x32, 0x42, 0x00, 0x00, 0x00, 0x15, 0x02, 0xe7, 0x00, 0x02, 0x00, 0x09, 0x01, 0x3f, 0x03]).toBool = true := by decide +kernel

/-- okdmr/tests/kaitai/hytera/test_hstrp.py:36 -/
example : (fromBytes Hytera.HyteraSimpleTransportReliabilityProtocol.read [0x32, 0x42, 0x00, 0x20, 0x00, 0x1b, 0x83, 0x04, 0x00, 0x01, 0x86, 0x9f, 0x04, 0x01, 0x01, 0x02, 0xe7, 0x80, 0x07, 0x00, 0x00, 0x01, 0x09, 0x38, 0xff, 0xff, 0xff, 0x85, 0x03]).toBool = true := by decide +kernel

/-- okdmr/tests/kaitai/hytera/test_ipsc.py:10 -/
example : (fromBytes Hytera.IpSiteConnectProtocol.read [0x5a, 0x5a, 0x5a, 0x5a, 0x00, 0x00, 0x00, 0x00, 0x42, 0x00, 0x05, 0x01, 0x02, 0x00, 0x00, 0x00, 0x22, 0x22, 0xdd, 0xdd, 0x55, 0x55, 0x00, 0x00, 0x40, 0x00, 0x00, 0x00, 0x00, 0x00, 0x00, 0x00, 0x00, 0x00, 0x00, 0x00, 0x00, 0x00, 0x02, 0x00, 0x02, 0x00, 0x00, 0x00, 0x00, 0x00, 0x00, 0x00, 0x00, 0x00, 0x00, 0x00, 0x00, 0x00, 0x00, 0x00, 0xb2, 0xdd, 0x50, 0x32, 0x50, 0x38, 0x0c, 0x00, 0x00, 0x00, 0x14, 0x00, 0x00, 0x00, 0xff, 0x01]).toBool = true := by decide +kernel

/-- okdmr/tests/kaitai/hytera/test_ipsc.py:12 -/
example : (fromBytes Hytera.IpSiteConnectProtocol.read [0x5a, 0x5a, 0x5a, 0x5a, 0x00, 0x00, 0x00, 0x00, 0x42, 0x00, 0x05, 0x01, 0x02, 0x00, 0x00, 0x00, 0x22, 0x22, 0xee, 0xee, 0x55, 0x55, 0x33, 0x33, 0x40, 0x00, 0xbd, 0x00, 0x00, 0x00, 0x80, 0x00, 0x15, 0x00, 0x00, 0x00, 0x08, 0x00, 0xfd, 0x00, 0x23, 0x00, 0x38, 0x00, 0x3b, 0x00, 0x38, 0x00, 0x3b, 0x00, 0xb4, 0x12, 0x00, 0x44, 0x7e, 0xb7, 0xff, 0xff, 0xef, 0x08, 0x44, 0x40, 0x00, 0x00, 0xfd, 0x08, 0x00, 0x00, 0x3b, 0x38, 0x23, 0x00]).toBool = true := by decide +kernel

/-- okdmr/tests/kaitai/hytera/test_ipsc.py:14 -/
example : (fromBytes Hytera.IpSiteConnectProtocol.read [0x5a, 0x5a, 0x5a, 0x5a, 0x00, 0x00, 0x00, 0x00, 0x42, 0x00, 0x05, 0x01, 0x02, 0x00, 0x00, 0x00, 0x22, 0x22, 0xee, 0xee, 0x55, 0x55, 0x11, 0x11, 0x40, 0x28, 0x00, 0x00, 0x00, 0x00, 0x00, 0x00, 0x00, 0x00, 0x00, 0x00, 0x6f, 0x00, 0x23, 0x00, 0x38, 0x00, 0x3b, 0x00, 0x34, 0x2a, 0x2c, 0x10, 0x94, 0x2a, 0x2c, 0x10, 0xf4, 0x2a, 0x2c, 0x10, 0x83, 0x3f, 0x00, 0x17, 0xe6, 0x0a, 0x01, 0x00, 0x6f, 0x00, 0x00, 0x00, 0x3b, 0x38, 0x23, 0x00]).toBool = true := by decide +kernel

/-- okdmr/tests/kaitai/hytera/test_ipsc.py:26 -/
example : (fromBytes Hytera.IpSiteConnectProtocol.read [0x5a, 0x5a, 0x5a, 0x5a, 0x00, 0x00, 0x00, 0x00, 0x42, 0x00, 0x05, 0x01, 0x01, 0x00, 0x00, 0x00, 0x11, 0x11, 0xdd, 0xdd, 0x11, 0x11, 0x00, 0x00, 0x40, 0x6c, 0x27, 0x10, 0xb0, 0x6c, 0x27, 0x10, 0x0c, 0x6d, 0x27, 0x10, 0x38, 0x6d, 0x27, 0x10, 0x78, 0x6d, 0x27, 0x10, 0xb8, 0x6d, 0x27, 0x10, 0x18, 0x6e, 0x27, 0x10, 0x78, 0x6e, 0x27, 0x10, 0x30, 0x30, 0x7e, 0x04, 0x00, 0xfd, 0x00, 0x00, 0x00, 0x00, 0x00, 0x0c, 0x70, 0xd2, 0x04, 0x01]).toOption.map (·.is_wakeup) = some true := by decide +kernel

/-- okdmr/tests/kaitai/hytera/test_ipsc.py:27 -/
example : (fromBytes Hytera.IpSiteConnectProtocol.read [0x5a, 0x5a, 0x5a, 0x5a, 0x00, 0x00, 0x00, 0x00, 0x42, 0x00, 0x05, 0x01, 0x02, 0x00, 0x00, 0x00, 0x22, 0x22, 0xdd, 0xdd, 0x11, 0x11, 0x00, 0x00, 0x40, 0x6c, 0x27, 0x10, 0xb0, 0x6c, 0x27, 0x10, 0x0c, 0x6d, 0x27, 0x10, 0x38, 0x6d, 0x27, 0x10, 0x78, 0x6d, 0x27, 0x10, 0xb8, 0x6d, 0x27, 0x10, 0x18, 0x6e, 0x27, 0x10, 0x78, 0x6e, 0x27, 0x10, 0x30, 0x30, 0x7e, 0x04, 0x00, 0xfd, 0x00, 0x00, 0x00, 0x00, 0x00, 0x0c, 0x70, 0xd2, 0x04, 0x01]).toOption.map (·.is_wakeup) = some true := by decide +kernel

/-- okdmr/tests/kaitai/hytera/test_ipsc.py:28 -/
example : (fromBytes Hytera.IpSiteConnectProtocol.read [0x5a, 0x5a, 0x5a, 0x5a, 0x00, 0x00, 0x00, 0x00, 0x42, 0x00, 0x05, 0x01, 0x01, 0x00, 0x00, 0x00, 0x11, 0x11, 0xdd, 0xdd, 0x11, 0x11, 0x00, 0x00, 0x40, 0x6c, 0x27, 0x10, 0xb0, 0x6c, 0x27, 0x10, 0x0c, 0x6d, 0x27, 0x10, 0x38, 0x6d, 0x27, 0x10, 0x78, 0x6d, 0x27, 0x10, 0xb8, 0x6d, 0x27, 0x10, 0x18, 0x6e, 0x27, 0x10, 0x78, 0x6e, 0x27, 0x10, 0x30, 0x30, 0x32, 0x42, 0x00, 0x24, 0x00, 0x00, 0x83, 0x04, 0x00, 0x00, 0x00, 0x6f, 0x04, 0x01]).toOption.map (·.is_wakeup) = some true := by decide +kernel

/-- okdmr/tests/kaitai/hytera/test_ipsc.py:29 -/
example : (fromBytes Hytera.IpSiteConnectProtocol.read [0x5a, 0x5a, 0x5a, 0x5a, 0x00, 0x00, 0x00, 0x00, 0x42, 0x00, 0x05, 0x01, 0x02, 0x00, 0x00, 0x00, 0x22, 0x22, 0xdd, 0xdd, 0x11, 0x11, 0x00, 0x00, 0x40, 0x6c, 0x27, 0x10, 0xb0, 0x6c, 0x27, 0x10, 0x0c, 0x6d, 0x27, 0x10, 0x38, 0x6d, 0x27, 0x10, 0x78, 0x6d, 0x27, 0x10, 0xb8, 0x6d, 0x27, 0x10, 0x18, 0x6e, 0x27, 0x10, 0x78, 0x6e, 0x27, 0x10, 0x30, 0x30, 0x32, 0x42, 0x00, 0x24, 0x00, 0x00, 0x83, 0x04, 0x00, 0x00, 0x00, 0x6f, 0x04, 0x01]).toOption.map (·.is_wakeup) = some true := by decide +kernel

/-- okdmr/tests/kaitai/hytera/test_ipsc.py:30 -/
example : (fromBytes Hytera.IpSiteConnectProtocol.read [0x5a, 0x5a, 0x5a, 0x5a, 0x00, 0x00, 0x00, 0x00, 0x42, 0x00, 0x05, 0x01, 0x01, 0x00, 0x00, 0x00, 0x11, 0x11, 0xdd, 0xdd, 0x11, 0x11, 0x00, 0x00, 0x40, 0x30, 0x30, 0x30, 0x30, 0x30, 0x30, 0x30, 0x30, 0x30, 0x30, 0x30, 0x30, 0x30, 0x30, 0x30, 0x30, 0x30, 0x30, 0x30, 0x30, 0x30, 0x30, 0x30, 0x30, 0x30, 0x30, 0x30, 0x30, 0x30, 0x30, 0x30, 0x30, 0x30, 0x00, 0x00, 0x04, 0x02, 0x01, 0x00, 0x6f, 0x00, 0x00, 0x00, 0x3b, 0x38, 0x23, 0x00]).toOption.map (·.is_wakeup) = some true := by decide +kernel

/-- okdmr/tests/kaitai/hytera/test_ipsc.py:31 -/
example : (fromBytes Hytera.IpSiteConnectProtocol.read [0x5a, 0x5a, 0x5a, 0x5a, 0x00, 0x00, 0x00, 0x00, 0x42, 0x00, 0x05, 0x01, 0x02, 0x00, 0x00, 0x00, 0x22, 0x22, 0xdd, 0xdd, 0x11, 0x11, 0x00, 0x00, 0x40, 0x30, 0x30, 0x30, 0x30, 0x30, 0x30, 0x30, 0x30, 0x30, 0x30, 0x30, 0x30, 0x30, 0x30, 0x30, 0x30, 0x30, 0x30, 0x30, 0x30, 0x30, 0x30, 0x30, 0x30, 0x30, 0x30, 0x30, 0x30, 0x30, 0x30, 0x30, 0x30, 0x30, 0x00, 0x00, 0x04, 0x02, 0x01, 0x00, 0x6f, 0x00, 0x00, 0x00, 0x3b, 0x38, 0x23, 0x00]).toOption.map (·.is_wakeup) = some true := by decide +kernel

/-- okdmr/tests/kaitai/hytera/test_ipsc.py:32 -/
example : (fromBytes Hytera.IpSiteConnectProtocol.read [0x5a, 0x5a, 0x5a, 0x5a, 0x00, 0x00, 0x00, 0x00, 0x42, 0x00, 0x05, 0x01, 0x01, 0x00, 0x00, 0x00, 0x11, 0x11, 0xdd, 0xdd, 0x11, 0x11, 0x00, 0x00, 0x40, 0x6c, 0x27, 0x10, 0xb0, 0x6c, 0x27, 0x10, 0x0c, 0x6d, 0x27, 0x10, 0x38, 0x6d, 0x27, 0x10, 0x78, 0x6d, 0x27, 0x10, 0xb8, 0x6d, 0x27, 0x10, 0x18, 0x6e, 0x27, 0x10, 0x78, 0x6e, 0x27, 0x10, 0x30, 0x30, 0x32, 0x42, 0x00, 0x24, 0x00, 0x00, 0x83, 0x04, 0x00, 0x00, 0x00, 0x6f, 0x04, 0x01]).toOption.map (·.is_wakeup) = some true := by decide +kernel

/-- okdmr/tests/kaitai/hytera/test_ipsc.py:33 -/
example : (fromBytes Hytera.IpSiteConnectProtocol.read [0x5a, 0x5a, 0x5a, 0x5a, 0x00, 0x00, 0x00, 0x00, 0x42, 0x00, 0x05, 0x01, 0x02, 0x00, 0x00, 0x00, 0x22, 0x22, 0xdd, 0xdd, 0x11, 0x11, 0x00, 0x00, 0x40, 0x6c, 0x27, 0x10, 0xb0, 0x6c, 0x27, 0x10, 0x0c, 0x6d, 0x27, 0x10, 0x38, 0x6d, 0x27, 0x10, 0x78, 0x6d, 0x27, 0x10, 0xb8, 0x6d, 0x27, 0x10, 0x18, 0x6e, 0x27, 0x10, 0x78, 0x6e, 0x27, 0x10, 0x30, 0x30, 0x32, 0x42, 0x00, 0x24, 0x00, 0x00, 0x83, 0x04, 0x00, 0x00, 0x00, 0x6f, 0x04, 0x01]).toOption.map (·.is_wakeup) = some true := by decide +kernel

/-- okdmr/tests/kaitai/hytera/test_ipsc.py:34 -/
example : (fromBytes Hytera.IpSiteConnectProtocol.read [0x5a, 0x5a, 0x5a, 0x5a, 0x00, 0x00, 0x00, 0x00, 0x42, 0x00, 0x05, 0x01, 0x01, 0x00, 0x00, 0x00, 0x11, 0x11, 0xdd, 0xdd, 0x11, 0x11, 0x00, 0x00, 0x40, 0x30, 0x30, 0x30, 0x30, 0x30, 0x30, 0x30, 0x30, 0x30, 0x30, 0x30, 0x30, 0x30, 0x30, 0x30, 0x30, 0x30, 0x30, 0x30, 0x30, 0x30, 0x30, 0x30, 0x30, 0x30, 0x30, 0x30, 0x30, 0x30, 0x30, 0x30, 0x30, 0x30, 0xef, 0x08, 0x00, 0x00, 0x01, 0x00, 0x6f, 0x00, 0x00, 0x00, 0x3b, 0x38, 0x23, 0x00]).toOption.map (·.is_wakeup) = some true := by decide +kernel

/-- okdmr/tests/kaitai/hytera/test_ipsc.py:35 -/
example : (fromBytes Hytera.IpSiteConnectProtocol.read [0x5a, 0x5a, 0x5a, 0x5a, 0x00, 0x00, 0x00, 0x00, 0x42, 0x00, 0x05, 0x01, 0x02, 0x00, 0x00, 0x00, 0x22, 0x22, 0xdd, 0xdd, 0x11, 0x11, 0x00, 0x00, 0x40, 0x30, 0x30, 0x30, 0x30, 0x30, 0x30, 0x30, 0x30, 0x30, 0x30, 0x30, 0x30, 0x30, 0x30, 0x30, 0x30, 0x30, 0x30, 0x30, 0x30, 0x30, 0x30, 0x30, 0x30, 0x30, 0x30, 0x30, 0x30, 0x30, 0x30, 0x30, 0x30, 0x30, 0xef, 0x08, 0x00, 0x00, 0x01, 0x00, 0x6f, 0x00, 0x00, 0x00, 0x3b, 0x38, 0x23, 0x00]).toOption.map (·.is_wakeup) = some true := by decide +kernel

/-- okdmr/tests/kaitai/hytera/test_ipsc.py:36 -/
example : (fromBytes Hytera.IpSiteConnectProtocol.read [0x5a, 0x5a, 0x5a, 0x5a, 0x00, 0x00, 0x00, 0x00, 0x42, 0x00, 0x05, 0x01, 0x01, 0x00, 0x00, 0x00, 0x11, 0x11, 0xdd, 0xdd, 0x11, 0x11, 0x00, 0x00, 0x40, 0x6c, 0x27, 0x10, 0xb0, 0x6c, 0x27, 0x10, 0x0c, 0x6d, 0x27, 0x10, 0x38, 0x6d, 0x27, 0x10, 0x78, 0x6d, 0x27, 0x10, 0xb8, 0x6d, 0x27, 0x10, 0x18, 0x6e, 0x27, 0x10, 0x78, 0x6e, 0x27, 0x10, 0x30, 0x30, 0x00, 0x17, 0xe6, 0x0a, 0x01, 0x00, 0x6f, 0x00, 0x00, 0x00, 0x3b, 0x38, 0x23, 0x00]).toOption.map (·.is_wakeup) = some true := by decide +kernel

/-- okdmr/tests/kaitai/hytera/test_ipsc.py:37 -/
example : (fromBytes Hytera.IpSiteConnectProtocol.read [0x5a, 0x5a, 0x5a, 0x5a, 0x00, 0x00, 0x00, 0x00, 0x42, 0x00, 0x05, 0x01, 0x02, 0x00, 0x00, 0x00, 0x22, 0x22, 0xdd, 0xdd, 0x11, 0x11, 0x00, 0x00, 0x40, 0x6c, 0x27, 0x10, 0xb0, 0x6c, 0x27, 0x10, 0x0c, 0x6d, 0x27, 0x10, 0x38, 0x6d, 0x27, 0x10, 0x78, 0x6d, 0x27, 0x10, 0xb8, 0x6d, 0x27, 0x10, 0x18, 0x6e, 0x27, 0x10, 0x78, 0x6e, 0x27, 0x10, 0x30, 0x30, 0x00, 0x17, 0xe6, 0x0a, 0x01, 0x00, 0x6f, 0x00, 0x00, 0x00, 0x3b, 0x38, 0x23, 0x00]).toOption.map (·.is_wakeup) = some true := by decide +kernel

/-- okdmr/tests/kaitai/hytera/test_ipsc.py:38 -/
example : (fromBytes Hytera.IpSiteConnectProtocol.read [0x5a, 0x5a, 0x5a, 0x5a, 0x00, 0x00, 0x00, 0x00, 0x42, 0x00, 0x05, 0x01, 0x01, 0x00, 0x00, 0x00, 0x11, 0x11, 0xdd, 0xdd, 0x11, 0x11, 0x00, 0x00, 0x40, 0x4e, 0x19, 0x10, 0xa4, 0x4e, 0x19, 0x10, 0x00, 0x4f, 0x19, 0x10, 0x2c, 0x4f, 0x19, 0x10, 0x6c, 0x4f, 0x19, 0x10, 0xac, 0x4f, 0x19, 0x10, 0x0c, 0x50, 0x19, 0x10, 0x6c, 0x50, 0x19, 0x10, 0x30, 0x30, 0x32, 0x42, 0x00, 0x24, 0x00, 0x00, 0x83, 0x04, 0x00, 0x00, 0x00, 0x6f, 0x04, 0x01]).toOption.map (·.is_wakeup) = some true := by decide +kernel

/-- okdmr/tests/kaitai/hytera/test_ipsc.py:39 -/
example : (fromBytes Hytera.IpSiteConnectProtocol.read [0x5a, 0x5a, 0x5a, 0x5a, 0x00, 0x00, 0x00, 0x00, 0x42, 0x00, 0x05, 0x01, 0x02, 0x00, 0x00, 0x00, 0x22, 0x22, 0xdd, 0xdd, 0x11, 0x11, 0x00, 0x00, 0x40, 0x4e, 0x19, 0x10, 0xa4, 0x4e, 0x19, 0x10, 0x00, 0x4f, 0x19, 0x10, 0x2c, 0x4f, 0x19, 0x10, 0x6c, 0x4f, 0x19, 0x10, 0xac, 0x4f, 0x19, 0x10, 0x0c, 0x50, 0x19, 0x10, 0x6c, 0x50, 0x19, 0x10, 0x30, 0x30, 0x32, 0x42, 0x00, 0x24, 0x00, 0x00, 0x83, 0x04, 0x00, 0x00, 0x00, 0x6f, 0x04, 0x01]).toOption.map (·.is_wakeup) = some true := by decide +kernel

/-- okdmr/tests/kaitai/hytera/test_ipsc.py:40 -/
example : (fromBytes Hytera.IpSiteConnectProtocol.read [0x5a, 0x5a, 0x5a, 0x5a, 0x00, 0x00, 0x00, 0x00, 0x42, 0x00, 0x05, 0x01, 0x01, 0x00, 0x00, 0x00, 0x11, 0x11, 0xdd, 0xdd, 0x11, 0x11, 0x00, 0x00, 0x40, 0x6c, 0x27, 0x10, 0xb0, 0x6c, 0x27, 0x10, 0x0c, 0x6d, 0x27, 0x10, 0x38, 0x6d, 0x27, 0x10, 0x78, 0x6d, 0x27, 0x10, 0xb8, 0x6d, 0x27, 0x10, 0x18, 0x6e, 0x27, 0x10, 0x78, 0x6e, 0x27, 0x10, 0x83, 0x26, 0x00, 0x24, 0x32, 0x0a, 0x01, 0x00, 0x6f, 0x00, 0x00, 0x00, 0x3b, 0x38, 0x23, 0x00]).toOption.map (·.is_wakeup) = some true := by decide +kernel

/-- okdmr/tests/kaitai/hytera/test_ipsc.py:41 -/
example : (fromBytes Hytera.IpSiteConnectProtocol.read [0x5a, 0x5a, 0x5a, 0x5a, 0x00, 0x00, 0x00, 0x00, 0x42, 0x00, 0x05, 0x01, 0x02, 0x00, 0x00, 0x00, 0x22, 0x22, 0xdd, 0xdd, 0x11, 0x11, 0x00, 0x00, 0x40, 0x6c, 0x27, 0x10, 0xb0, 0x6c, 0x27, 0x10, 0x0c, 0x6d, 0x27, 0x10, 0x38, 0x6d, 0x27, 0x10, 0x78, 0x6d, 0x27, 0x10, 0xb8, 0x6d, 0x27, 0x10, 0x18, 0x6e, 0x27, 0x10, 0x78, 0x6e, 0x27, 0x10, 0x83, 0x26, 0x00, 0x24, 0x32, 0x0a, 0x01, 0x00, 0x6f, 0x00, 0x00, 0x00, 0x3b, 0x38, 0x23, 0x00]).toOption.map (·.is_wakeup) = some true := by decide +kernel

/-- okdmr/tests/kaitai/hytera/test_ipsc.py:42 -/
example : (fromBytes Hytera.IpSiteConnectProtocol.read [0x5a, 0x5a, 0x5a, 0x5a, 0x00, 0x00, 0x00, 0x00, 0x42, 0x00, 0x05, 0x01, 0x01, 0x00, 0x00, 0x00, 0x11, 0x11, 0xdd, 0xdd, 0x11, 0x11, 0x00, 0x00, 0x40, 0x00, 0x00, 0x00, 0x00, 0x00, 0x00, 0x00, 0x00, 0x00, 0x00, 0x00, 0x01, 0x00, 0x02, 0x00, 0x02, 0x00, 0x01, 0x00, 0x00, 0x00, 0x00, 0x00, 0x00, 0x00, 0x00, 0x00, 0x00, 0x00, 0x00, 0x00, 0xff, 0xff, 0xef, 0x08, 0x2a, 0x00, 0x00, 0x00, 0x00, 0x00, 0x14, 0x00, 0x00, 0x00, 0x42, 0x01]).toOption.map (·.is_wakeup) = some true := by decide +kernel

/-- okdmr/tests/kaitai/hytera/test_ipsc.py:43 -/
example : (fromBytes Hytera.IpSiteConnectProtocol.read [0x5a, 0x5a, 0x5a, 0x5a, 0x00, 0x00, 0x00, 0x00, 0x42, 0x00, 0x05, 0x01, 0x02, 0x00, 0x00, 0x00, 0x22, 0x22, 0xdd, 0xdd, 0x11, 0x11, 0x00, 0x00, 0x40, 0x00, 0x00, 0x00, 0x00, 0x00, 0x00, 0x00, 0x00, 0x00, 0x00, 0x00, 0x01, 0x00, 0x02, 0x00, 0x02, 0x00, 0x01, 0x00, 0x00, 0x00, 0x00, 0x00, 0x00, 0x00, 0x00, 0x00, 0x00, 0x00, 0x00, 0x00, 0xff, 0xff, 0xef, 0x08, 0x2a, 0x00, 0x00, 0x00, 0x00, 0x00, 0x14, 0x00, 0x00, 0x00, 0x42, 0x01]).toOption.map (·.is_wakeup) = some true := by decide +kernel

/-- okdmr/tests/kaitai/hytera/test_ipsc.py:44 -/
example : (fromBytes Hytera.IpSiteConnectProtocol.read [0x5a, 0x5a, 0x5a, 0x5a, 0x00, 0x00, 0x00, 0x00, 0x42, 0x00, 0x05, 0x01, 0x01, 0x00, 0x00, 0x00, 0x11, 0x11, 0xdd, 0xdd, 0x11, 0x11, 0x00, 0x00, 0x40, 0x00, 0x00, 0x00, 0x00, 0x00, 0x00, 0x00, 0x00, 0x00, 0x00, 0x00, 0x01, 0x00, 0x02, 0x00, 0x02, 0x00, 0x01, 0x00, 0x00, 0x00, 0x00, 0x00, 0x00, 0x00, 0x00, 0x00, 0x00, 0x00, 0x00, 0x00, 0xff, 0xff, 0xef, 0x08, 0x2a, 0x00, 0x00, 0x00, 0x00, 0x00, 0x00, 0x0c, 0x70, 0xd5, 0x00, 0x00]).toOption.map (·.is_wakeup) = some true := by decide +kernel

/-- okdmr/tests/kaitai/hytera/test_ipsc.py:45 -/
example : (fromBytes Hytera.IpSiteConnectProtocol.read [0x5a, 0x5a, 0x5a, 0x5a, 0x00, 0x00, 0x00, 0x00, 0x42, 0x00, 0x05, 0x01, 0x02, 0x00, 0x00, 0x00, 0x22, 0x22, 0xdd, 0xdd, 0x11, 0x11, 0x00, 0x00, 0x40, 0x00, 0x00, 0x00, 0x00, 0x00, 0x00, 0x00, 0x00, 0x00, 0x00, 0x00, 0x01, 0x00, 0x02, 0x00, 0x02, 0x00, 0x01, 0x00, 0x00, 0x00, 0x00, 0x00, 0x00, 0x00, 0x00, 0x00, 0x00, 0x00, 0x00, 0x00, 0xff, 0xff, 0xef, 0x08, 0x2a, 0x00, 0x00, 0x00, 0x00, 0x00, 0x00, 0x0c, 0x70, 0xd5, 0x00, 0x00]).toOption.map (·.is_wakeup) = some true := by decide +kernel

/-- okdmr/tests/kaitai/hytera/test_ipsc.py:46 -/
example : (fromBytes Hytera.IpSiteConnectProtocol.read [0x5a, 0x5a, 0x5a, 0x5a, 0x00, 0x00, 0x00, 0x00, 0x42, 0x00, 0x05, 0x01, 0x01, 0x00, 0x00, 0x00, 0x11, 0x11, 0xdd, 0xdd, 0x55, 0x55, 0x00, 0x00, 0x40, 0x00, 0x00, 0x00, 0x00, 0x00, 0x00, 0x00, 0x00, 0x00, 0x00, 0x00, 0x01, 0x00, 0x02, 0x00, 0x02, 0x00, 0x01, 0x00, 0x00, 0x00, 0x00, 0x00, 0x00, 0x00, 0x00, 0x00, 0x00, 0x00, 0x00, 0x00, 0xff, 0xff, 0xef, 0x08, 0x00, 0x00, 0x00, 0x00, 0x00, 0x00, 0x00, 0x0c, 0x70, 0xd5, 0x00, 0x00]).toOption.map (·.is_wakeup) = some true := by decide +kernel

/-- okdmr/tests/kaitai/hytera/test_ipsc.py:47 -/
example : (fromBytes Hytera.IpSiteConnectProtocol.read [0x5a, 0x5a, 0x5a, 0x5a, 0x00, 0x00, 0x00, 0x00, 0x42, 0x00, 0x05, 0x01, 0x02, 0x00, 0x00, 0x00, 0x22, 0x22, 0xdd, 0xdd, 0x55, 0x55, 0x00, 0x00, 0x40, 0x00, 0x00, 0x00, 0x00, 0x00, 0x00, 0x00, 0x00, 0x00, 0x00, 0x00, 0x01, 0x00, 0x02, 0x00, 0x02, 0x00, 0x01, 0x00, 0x00, 0x00, 0x00, 0x00, 0x00, 0x00, 0x00, 0x00, 0x00, 0x00, 0x00, 0x00, 0xff, 0xff, 0xef, 0x08, 0x00, 0x00, 0x00, 0x00, 0x00, 0x00, 0x00, 0x0c, 0x70, 0xd5, 0x00, 0x00]).toOption.map (·.is_wakeup) = some true := by decide +kernel

/-- okdmr/tests/kaitai/hytera/test_ipsc.py:48 -/
example : (fromBytes Hytera.IpSiteConnectProtocol.read [0x5a, 0x5a, 0x5a, 0x5a, 0x00, 0x00, 0x00, 0x00, 0x42, 0x00, 0x05, 0x01, 0x01, 0x00, 0x00, 0x00, 0x11, 0x11, 0xdd, 0xdd, 0x55, 0x55, 0x00, 0x00, 0x40, 0x00, 0x00, 0x00, 0x00, 0x00, 0x00, 0x00, 0x00, 0x00, 0x00, 0x00, 0x01, 0x00, 0x02, 0x00, 0x02, 0x00, 0x01, 0x00, 0x00, 0x00, 0x00, 0x00, 0x00, 0x00, 0x00, 0x00, 0x00, 0x00, 0x00, 0x00, 0xff, 0xff, 0xef, 0x08, 0x2a, 0x00, 0x00, 0x00, 0x00, 0x00, 0x00, 0x00, 0x09, 0x38, 0x23, 0x00]).toOption.map (·.is_wakeup) = some true := by decide +kernel

/-- okdmr/tests/kaitai/hytera/test_ipsc.py:49 -/
example : (fromBytes Hytera.IpSiteConnectProtocol.read [0x5a, 0x5a, 0x5a, 0x5a, 0x00, 0x00, 0x00, 0x00, 0x42, 0x00, 0x05, 0x01, 0x02, 0x00, 0x00, 0x00, 0x22, 0x22, 0xdd, 0xdd, 0x55, 0x55, 0x00, 0x00, 0x40, 0x00, 0x00, 0x00, 0x00, 0x00, 0x00, 0x00, 0x00, 0x00, 0x00, 0x00, 0x01, 0x00, 0x02, 0x00, 0x02, 0x00, 0x01, 0x00, 0x00, 0x00, 0x00, 0x00, 0x00, 0x00, 0x00, 0x00, 0x00, 0x00, 0x00, 0x00, 0xff, 0xff, 0xef, 0x08, 0x2a, 0x00, 0x00, 0x00, 0x00, 0x00, 0x00, 0x00, 0x09, 0x38, 0x23, 0x00]).toOption.map (·.is_wakeup) = some true := by decide +kernel

/-- okdmr/tests/kaitai/hytera/test_ipsc.py:50 -/
example : (fromBytes Hytera.IpSiteConnectProtocol.read [0x5a, 0x5a, 0x5a, 0x5a, 0x00, 0x00, 0x00, 0x00, 0x42, 0x00, 0x05, 0x01, 0x01, 0x00, 0x00, 0x00, 0x11, 0x11, 0xdd, 0xdd, 0x55, 0x55, 0x00, 0x00, 0x40, 0x00, 0x00, 0x00, 0x00, 0x00, 0x00, 0x00, 0x00, 0x00, 0x00, 0x00, 0x00, 0x00, 0x02, 0x00, 0x02, 0x00, 0x00, 0x00, 0x00, 0x00, 0x00, 0x00, 0x00, 0x00, 0x00, 0x00, 0x00, 0x00, 0x00, 0x00, 0x83, 0x04, 0x00, 0x33, 0xb0, 0x0a, 0x01, 0x00, 0x6f, 0x00, 0x00, 0x00, 0x09, 0x38, 0x23, 0x00]).toOption.map (·.is_wakeup) = some true := by decide +kernel

/-- okdmr/tests/kaitai/hytera/test_ipsc.py:51 -/
example : (fromBytes Hytera.IpSiteConnectProtocol.read [0x5a, 0x5a, 0x5a, 0x5a, 0x00, 0x00, 0x00, 0x00, 0x42, 0x00, 0x05, 0x01, 0x02, 0x00, 0x00, 0x00, 0x22, 0x22, 0xdd, 0xdd, 0x55, 0x55, 0x00, 0x00, 0x40, 0x00, 0x00, 0x00, 0x00, 0x00, 0x00, 0x00, 0x00, 0x00, 0x00, 0x00, 0x00, 0x00, 0x02, 0x00, 0x02, 0x00, 0x00, 0x00, 0x00, 0x00, 0x00, 0x00, 0x00, 0x00, 0x00, 0x00, 0x00, 0x00, 0x00, 0x00, 0x83, 0x04, 0x00, 0x33, 0xb0, 0x0a, 0x01, 0x00, 0x6f, 0x00, 0x00, 0x00, 0x09, 0x38, 0x23, 0x00]).toOption.map (·.is_wakeup) = some true := by decide +kernel

/-- okdmr/tests/kaitai/hytera/test_ipsc.py:52 -/
example : (fromBytes Hytera.IpSiteConnectProtocol.read [0x5a, 0x5a, 0x5a, 0x5a, 0x00, 0x00, 0x00, 0x00, 0x42, 0x00, 0x05, 0x01, 0x01, 0x00, 0x00, 0x00, 0x11, 0x11, 0xdd, 0xdd, 0x55, 0x55, 0x00, 0x00, 0x40, 0x00, 0x00, 0x00, 0x00, 0x00, 0x00, 0x00, 0x00, 0x00, 0x00, 0x00, 0x01, 0x00, 0x02, 0x00, 0x02, 0x00, 0x01, 0x00, 0x00, 0x00, 0x00, 0x00, 0x00, 0x00, 0x00, 0x00, 0x00, 0x00, 0x00, 0x00, 0xff, 0xff, 0xef, 0x08, 0x2a, 0x00, 0x00, 0x00, 0x00, 0x00, 0x00, 0x00, 0x09, 0x38, 0x23, 0x00]).toOption.map (·.is_wakeup) = some true := by decide +kernel

/-- okdmr/tests/kaitai/hytera/test_ipsc.py:53 -/
example : (fromBytes Hytera.IpSiteConnectProtocol.read [0x5a, 0x5a, 0x5a, 0x5a, 0x00, 0x00, 0x00, 0x00, 0x42, 0x00, 0x05, 0x01, 0x02, 0x00, 0x00, 0x00, 0x22, 0x22, 0xdd, 0xdd, 0x55, 0x55, 0x00, 0x00, 0x40, 0x00, 0x00, 0x00, 0x00, 0x00, 0x00, 0x00, 0x00, 0x00, 0x00, 0x00, 0x01, 0x00, 0x02, 0x00, 0x02, 0x00, 0x01, 0x00, 0x00, 0x00, 0x00, 0x00, 0x00, 0x00, 0x00, 0x00, 0x00, 0x00, 0x00, 0x00, 0xff, 0xff, 0xef, 0x08, 0x2a, 0x00, 0x00, 0x00, 0x00, 0x00, 0x00, 0x00, 0x09, 0x38, 0x23, 0x00]).toOption.map (·.is_wakeup) = some true := by decide +kernel

/-- okdmr/tests/kaitai/hytera/test_ipsc.py:54 -/
example : (fromBytes Hytera.IpSiteConnectProtocol.read [0x5a, 0x5a, 0x5a, 0x5a, 0x00, 0x00, 0x00, 0x00, 0x42, 0x00, 0x05, 0x01, 0x01, 0x00, 0x00, 0x00, 0x11, 0x11, 0xdd, 0xdd, 0x55, 0x55, 0x00, 0x00, 0x40, 0x00, 0x00, 0x00, 0x00, 0x00, 0x00, 0x00, 0x00, 0x00, 0x00, 0x00, 0x01, 0x00, 0x02, 0x00, 0x02, 0x00, 0x01, 0x00, 0x00, 0x00, 0x00, 0x00, 0x00, 0x00, 0x00, 0x00, 0x00, 0x00, 0x00, 0x00, 0xff, 0xff, 0xef, 0x08, 0x2a, 0x00, 0x00, 0x00, 0x00, 0x00, 0x00, 0x0c, 0x70, 0xd4, 0x00, 0x00]).toOption.map (·.is_wakeup) = some true := by decide +kernel

/-- okdmr/tests/kaitai/hytera/test_ipsc.py:55 -/
example : (fromBytes Hytera.IpSiteConnectProtocol.read [0x5a, 0x5a, 0x5a, 0x5a, 0x00, 0x00, 0x00, 0x00, 0x42, 0x00, 0x05, 0x01, 0x02, 0x00, 0x00, 0x00, 0x22, 0x22, 0xdd, 0xdd, 0x55, 0x55, 0x00, 0x00, 0x40, 0x00, 0x00, 0x00, 0x00, 0x00, 0x00, 0x00, 0x00, 0x00, 0x00, 0x00, 0x01, 0x00, 0x02, 0x00, 0x02, 0x00, 0x01, 0x00, 0x00, 0x00, 0x00, 0x00, 0x00, 0x00, 0x00, 0x00, 0x00, 0x00, 0x00, 0x00, 0xff, 0xff, 0xef, 0x08, 0x2a, 0x00, 0x00, 0x00, 0x00, 0x00, 0x00, 0x0c, 0x70, 0xd4, 0x00, 0x00]).toOption.map (·.is_wakeup) = some true := by decide +kernel

/-- okdmr/tests/kaitai/hytera/test_ipsc.py:56 -/
example : (fromBytes Hytera.IpSiteConnectProtocol.read [0x5a, 0x5a, 0x5a, 0x5a, 0x00, 0x00, 0x00, 0x00, 0x42, 0x00, 0x05, 0x01, 0x01, 0x00, 0x00, 0x00, 0x11, 0x11, 0xdd, 0xdd, 0x11, 0x11, 0x00, 0x00, 0x40, 0x00, 0x00, 0x00, 0x00, 0x00, 0x00, 0x00, 0x00, 0x00, 0x00, 0x00, 0x01, 0x00, 0x00, 0x00, 0x00, 0x00, 0x01, 0x00, 0x00, 0x00, 0x00, 0x00, 0x00, 0x00, 0x00, 0x00, 0x00, 0x00, 0x00, 0x00, 0xff, 0xff, 0xef, 0x08, 0x00, 0x00, 0x0b, 0x00, 0x00, 0x00, 0x80, 0xbf, 0x00, 0x00, 0x00, 0x00]).toOption.map (·.is_wakeup) = some true := by decide +kernel

/-- okdmr/tests/kaitai/hytera/test_ipsc.py:57 -/
example : (fromBytes Hytera.IpSiteConnectProtocol.read [0x5a, 0x5a, 0x5a, 0x5a, 0x00, 0x00, 0x00, 0x00, 0x42, 0x00, 0x05, 0x01, 0x02, 0x00, 0x00, 0x00, 0x22, 0x22, 0xdd, 0xdd, 0x11, 0x11, 0x00, 0x00, 0x40, 0x00, 0x00, 0x00, 0x00, 0x00, 0x00, 0x00, 0x00, 0x00, 0x00, 0x00, 0x01, 0x00, 0x00, 0x00, 0x00, 0x00, 0x01, 0x00, 0x00, 0x00, 0x00, 0x00, 0x00, 0x00, 0x00, 0x00, 0x00, 0x00, 0x00, 0x00, 0xff, 0xff, 0xef, 0x08, 0x00, 0x00, 0x0b, 0x00, 0x00, 0x00, 0x80, 0xbf, 0x00, 0x00, 0x00, 0x00]).toOption.map (·.is_wakeup) = some true := by decide +kernel

/-- okdmr/tests/kaitai/hytera/test_ipsc.py:58 -/
example : (fromBytes Hytera.IpSiteConnectProtocol.read [0x5a, 0x5a, 0x5a, 0x5a, 0x00, 0x00, 0x00, 0x00, 0x42, 0x00, 0x05, 0x01, 0x01, 0x00, 0x00, 0x00, 0x11, 0x11, 0xdd, 0xdd, 0x55, 0x55, 0x00, 0x00, 0x40, 0x00, 0x00, 0x00, 0x00, 0x00, 0x00, 0x00, 0x00, 0x00, 0x00, 0x00, 0x01, 0x00, 0x02, 0x00, 0x02, 0x00, 0x01, 0x00, 0x00, 0x00, 0x00, 0x00, 0x00, 0x00, 0x00, 0x00, 0x00, 0x00, 0x00, 0x00, 0xff, 0xff, 0xef, 0x08, 0x2a, 0x00, 0x00, 0x00, 0x00, 0x00, 0x00, 0x0c, 0x71, 0xa5, 0x00, 0x00]).toOption.map (·.is_wakeup) = some true := by decide +kernel

/-- okdmr/tests/kaitai/hytera/test_ipsc.py:59 -/
example : (fromBytes Hytera.IpSiteConnectProtocol.read [0x5a, 0x5a, 0x5a, 0x5a, 0x00, 0x00, 0x00, 0x00, 0x42, 0x00, 0x05, 0x01, 0x02, 0x00, 0x00, 0x00, 0x22, 0x22, 0xdd, 0xdd, 0x55, 0x55, 0x00, 0x00, 0x40, 0x00, 0x00, 0x00, 0x00, 0x00, 0x00, 0x00, 0x00, 0x00, 0x00, 0x00, 0x01, 0x00, 0x02, 0x00, 0x02, 0x00, 0x01, 0x00, 0x00, 0x00, 0x00, 0x00, 0x00, 0x00, 0x00, 0x00, 0x00, 0x00, 0x00, 0x00, 0xff, 0xff, 0xef, 0x08, 0x2a, 0x00, 0x00, 0x00, 0x00, 0x00, 0x00, 0x0c, 0x71, 0xa5, 0x00, 0x00]).toOption.map (·.is_wakeup) = some true := by decide +kernel

/-- okdmr/tests/kaitai/hytera/test_ipsc.py:60 -/
example : (fromBytes Hytera.IpSiteConnectProtocol.read [0x5a, 0x5a, 0x5a, 0x5a, 0x00, 0x00, 0x00, 0x00, 0x42, 0x00, 0x05, 0x01, 0x01, 0x00, 0x00, 0x00, 0x11, 0x11, 0xdd, 0xdd, 0x11, 0x11, 0x00, 0x00, 0x40, 0x00, 0x00, 0x00, 0x00, 0x00, 0x00, 0x00, 0x00, 0x00, 0x00, 0x00, 0x01, 0x00, 0x02, 0x00, 0x02, 0x00, 0x01, 0x00, 0x00, 0x00, 0x00, 0x00, 0x00, 0x00, 0x00, 0x00, 0x00, 0x00, 0x00, 0x00, 0xff, 0xff, 0xef, 0x08, 0x2a, 0x00, 0x0b, 0x00, 0x00, 0x00, 0x00, 0x0c, 0x71, 0xb3, 0x6d, 0x04]).toOption.map (·.is_wakeup) = some true := by decide +kernel

/-- okdmr/tests/kaitai/hytera/test_ipsc.py:61 -/
example : (fromBytes Hytera.IpSiteConnectProtocol.read [0x5a, 0x5a, 0x5a, 0x5a, 0x00, 0x00, 0x00, 0x00, 0x42, 0x00, 0x05, 0x01, 0x02, 0x00, 0x00, 0x00, 0x22, 0x22, 0xdd, 0xdd, 0x11, 0x11, 0x00, 0x00, 0x40, 0x00, 0x00, 0x00, 0x00, 0x00, 0x00, 0x00, 0x00, 0x00, 0x00, 0x00, 0x01, 0x00, 0x02, 0x00, 0x02, 0x00, 0x01, 0x00, 0x00, 0x00, 0x00, 0x00, 0x00, 0x00, 0x00, 0x00, 0x00, 0x00, 0x00, 0x00, 0xff, 0xff, 0xef, 0x08, 0x2a, 0x00, 0x0b, 0x00, 0x00, 0x00, 0x00, 0x0c, 0x71, 0xb3, 0x6d, 0x04]).toOption.map (·.is_wakeup) = some true := by decide +kernel

/-- okdmr/tests/kaitai/hytera/test_location_protocol.py:11 -/
example : (fromBytes Hytera.LocationProtocol.read [0xa0, 0x03, 0x00, 0x34, 0x00, 0x00, 0x00, 0x00, 0x0a, 0x23, 0x38, 0x63, 0x00, 0x00, 0x41, 0x31, 0x31, 0x32, 0x35, 0x34, 0x30, 0x32, 0x37, 0x30, 0x39, 0x32, 0x31, 0x4e, 0x35, 0x30, 0x30, 0x33, 0x2e, 0x38, 0x37, 0x34, 0x36, 0x45, 0x30, 0x31, 0x34, 0x32, 0x36, 0x2e, 0x35, 0x31, 0x39, 0x32, 0x30, 0x2e, 0x32, 0x32, 0x35, 0x33, 0xff, 0x1c, 0xae, 0x03]).toBool = true := by decide +kernel

/-- okdmr/tests/kaitai/hytera/test_location_protocol.py:12 -/
example : (fromBytes Hytera.LocationProtocol.read [0xa0, 0x01, 0x00, 0x09, 0x20, 0x00, 0x00, 0x03, 0x0a, 0x03, 0x64, 0x0e, 0x01, 0xe5, 0x03]).toBool = true := by decide +kernel

/-- okdmr/tests/kaitai/hytera/test_location_protocol.py:13 -/
example : (fromBytes Hytera.LocationProtocol.read [0xa0, 0x02, 0x00, 0x32, 0x20, 0x00, 0x00, 0x03, 0x0a, 0x03, 0x64, 0x0e, 0x00, 0x00, 0x41, 0x31, 0x36, 0x32, 0x32, 0x35, 0x31, 0x33, 0x31, 0x31, 0x30, 0x31, 0x38, 0x4e, 0x34, 0x37, 0x33, 0x36, 0x2e, 0x36, 0x39, 0x37, 0x35, 0x45, 0x30, 0x30, 0x37, 0x33, 0x39, 0x2e, 0x32, 0x36, 0x38, 0x30, 0x30, 0x2e, 0x30, 0x30, 0x30, 0x35, 0x88, 0x03]).toBool = true := by decide +kernel

/-- okdmr/tests/kaitai/hytera/test_location_protocol.py:14 -/
example : (fromBytes Hytera.LocationProtocol.read [0xa0, 0x01, 0x00, 0x09, 0x20, 0x00, 0x00, 0x01, 0x0a, 0x03, 0x64, 0x0e, 0x01, 0xe7, 0x03]).toBool = true := by decide +kernel

/-- okdmr/tests/kaitai/hytera/test_location_protocol.py:15 -/
example : (fromBytes Hytera.LocationProtocol.read [0xa0, 0x02, 0x00, 0x32, 0x20, 0x00, 0x00, 0x01, 0x0a, 0x03, 0x64, 0x0e, 0x00, 0x00, 0x41, 0x31, 0x36, 0x32, 0x32, 0x32, 0x33, 0x33, 0x31, 0x31, 0x30, 0x31, 0x38, 0x4e, 0x34, 0x37, 0x33, 0x36, 0x2e, 0x36, 0x39, 0x37, 0x37, 0x45, 0x30, 0x30, 0x37, 0x33, 0x39, 0x2e, 0x32, 0x36, 0x38, 0x30, 0x30, 0x2e, 0x30, 0x30, 0x30, 0x35, 0x89, 0x03]).toBool = true := by decide +kernel

/-- okdmr/tests/kaitai/hytera/test_location_protocol.py:16 -/
example : (fromBytes Hytera.LocationProtocol.read [0xa0, 0x01, 0x00, 0x09, 0x20, 0x00, 0x00, 0x02, 0x0a, 0x03, 0x64, 0x0e, 0x01, 0xe6, 0x03]).toBool = true := by decide +kernel

/-- okdmr/tests/kaitai/hytera/test_location_protocol.py:18 -/
example : (fromBytes Hytera.LocationProtocol.read [0xd0, 0x01, 0x00, 0x39, 0x20, 0x00, 0x00, 0x02, 0x0a, 0x03, 0x64, 0x0e, 0x04, 0x00, 0x00, 0x03, 0xe8, 0x30, 0x30, 0x30, 0x30, 0x30, 0x30, 0x30, 0x30, 0x30, 0x30, 0x30, 0x30, 0x30, 0x30, 0x30, 0x30, 0x30, 0x30, 0x30, 0x30, 0x30, 0x30, 0x30, 0x30, 0x30, 0x30, 0x30, 0x30, 0x30, 0x30, 0x30, 0x30, 0x30, 0x31, 0x30, 0x30, 0x30, 0x30, 0x30, 0x30, 0x30, 0x38, 0x32, 0x30, 0x4d, 0x03]).toBool = true := by decide +kernel

/-- okdmr/tests/kaitai/hytera/test_location_protocol.py:20 -/
example : (fromBytes Hytera.LocationProtocol.read [0xd0, 0x04, 0x00, 0x34, 0x00, 0x00, 0x15, 0xc8, 0x0a, 0x00, 0x00, 0x03, 0x00, 0x00, 0x41, 0x31, 0x38, 0x34, 0x30, 0x33, 0x30, 0x30, 0x36, 0x31, 0x32, 0x32, 0x31, 0x4e, 0x34, 0x37, 0x32, 0x34, 0x2e, 0x30, 0x31, 0x35, 0x38, 0x45, 0x30, 0x30, 0x37, 0x33, 0x31, 0x2e, 0x31, 0x30, 0x37, 0x33, 0x30, 0x2e, 0x30, 0x32, 0x30, 0x37, 0xff, 0xc6, 0x63, 0x03]).toBool = true := by decide +kernel

/-- okdmr/tests/kaitai/hytera/test_location_protocol.py:29 -/
example : (fromBytes Hytera.LocationProtocol.read [0xa0, 0x02, 0x00, 0x32, 0x20, 0x00, 0x00, 0x01, 0x0a, 0x03, 0x64, 0x0e, 0x00, 0x00, 0x41, 0x31, 0x36, 0x32, 0x32, 0x32, 0x33, 0x33, 0x31, 0x31, 0x30, 0x31, 0x38, 0x4e, 0x34, 0x37, 0x33, 0x36, 0x2e, 0x36, 0x39, 0x37, 0x37, 0x45, 0x30, 0x30, 0x37, 0x33, 0x39, 0x2e, 0x32, 0x36, 0x38, 0x30, 0x30, 0x2e, 0x30, 0x30, 0x30, 0x35, 0x89, 0x03]).toBool = true := by decide +kernel

/-- okdmr/tests/kaitai/hytera/test_location_protocol.py:64 -/
example : (fromBytes Hytera.LocationProtocol.read [0xd0, 0x04, 0x00, 0x34, 0x00, 0x00, 0x15, 0xc8, 0x0a, 0x00, 0x00, 0x03, 0x00, 0x00, 0x41, 0x31, 0x38, 0x34, 0x30, 0x33, 0x30, 0x30, 0x36, 0x31, 0x32, 0x32, 0x31, 0x4e, 0x34, 0x37, 0x32, 0x34, 0x2e, 0x30, 0x31, 0x35, 0x38, 0x45, 0x30, 0x30, 0x37, 0x33, 0x31, 0x2e, 0x31, 0x30, 0x37, 0x33, 0x30, 0x2e, 0x30, 0x32, 0x30, 0x37, 0xff, 0xc6, 0x63, 0x03]).toBool = true := by decide +kernel

/-- okdmr/tests/kaitai/hytera/test_radio_ip.py:6 -/
example : (fromBytes Hytera.RadioIp.read [0x0a, 0x00, 0x00, 0x01]).toBool = true := by decide +kernel

/-- okdmr/tests/kaitai/hytera/test_radio_ip.py:7 -/
example : (fromBytes Hytera.RadioIp.read [0x0a, 0x00, 0x00, 0x50]).toBool = true := by decide +kernel

/-- okdmr/tests/kaitai/hytera/test_radio_ip.py:8 -/
example : (fromBytes Hytera.RadioIp.read [0x50, 0x01, 0x17, 0x2d]).toBool = true := by decide +kernel

/-- okdmr/tests/kaitai/hytera/test_radio_ip.py:9 -/
example : (fromBytes Hytera.RadioIp.read [0x50, 0x0c, 0x22, 0x38]).toBool = true := by decide +kernel

/-- okdmr/tests/kaitai/hytera/test_radio_ip.py:10 -/
example : (fromBytes Hytera.RadioIp.read [0x0a, 0x0a, 0x00, 0x01]).toBool = true := by decide +kernel

/-- okdmr/tests/kaitai/hytera/test_radio_ip.py:11 -/
example : (fromBytes Hytera.RadioIp.read [0x0a, 0x21, 0x10, 0xdd]).toBool = true := by decide +kernel

/-- okdmr/tests/kaitai/hytera/test_rcp.py:12 -/
example : (fromBytes Hytera.RadioControlProtocol.read [0x04, 0x00, 0x05, 0x00, 0x64, 0x00, 0x00, 0x00, 0x01]).toBool = true := by decide +kernel

/-- okdmr/tests/kaitai/hytera/test_rcp.py:18 -/
example : (fromBytes Hytera.RadioControlProtocol.read [0xd4, 0x82, 0xce, 0x00, 0x00, 0x0f, 0x69, 0x06, 0x00, 0x02, 0x00, 0x44, 0x00, 0x39, 0x00, 0x2e, 0x00, 0x30, 0x00, 0x30, 0x00, 0x2e, 0x00, 0x30, 0x00, 0x37, 0x00, 0x2e, 0x00, 0x32, 0x00, 0x31, 0x00, 0x30, 0x00, 0x2e, 0x00, 0x69, 0x00, 0x4d, 0x00, 0x00, 0x00, 0x41, 0x00, 0x39, 0x00, 0x2e, 0x00, 0x30, 0x00, 0x30, 0x00, 0x2e, 0x00, 0x30, 0x00, 0x38, 0x00, 0x2e, 0x00, 0x33, 0x00, 0x30, 0x00, 0x38, 0x00, 0x2e, 0x00, 0x69, 0x00, 0x4d, 0x00, 0x00, 0x00, 0x4f, 0x00, 0x4b, 0x00, 0x30, 0x00, 0x44, 0x00, 0x4d, 0x00, 0x52, 0x00, 0x00, 0x00, 0x00, 0x00, 0x00, 0x00, 0x00, 0x00, 0x00, 0x00, 0x00, 0x00, 0x00, 0x00, 0x00, 0x00, 0x00, 0x00, 0x00, 0x00, 0x52, 0x00, 0x44, 0x00, 0x39, 0x00, 0x38, 0x00, 0x35, 0x00, 0x2d, 0x00, 0x30, 0x00, 0x30, 0x00, 0x30, 0x00, 0x30, 0x00, 0x30, 0x00, 0x30, 0x00, 0x30, 0x00, 0x30, 0x00, 0x2d, 0x00, 0x30, 0x00, 0x30, 0x00, 0x30, 0x00, 0x30, 0x00, 0x30, 0x00, 0x30, 0x00, 0x2d, 0x00, 0x55, 0x00, 0x31, 0x00, 0x2d, 0x00, 0x30, 0x00, 0x2d, 0x00, 0x46, 0x00, 0x00, 0x00, 0x00, 0x00, 0x00, 0x00, 0x00, 0x00, 0x31, 0x00, 0x32, 0x00, 0x33, 0x00, 0x32, 0x00, 0x30, 0x00, 0x41, 0x00, 0x30, 0x00, 0x33, 0x00, 0x31, 0x00, 0x32, 0x00, 0x00, 0x00, 0x00, 0x00, 0x00, 0x00, 0x00, 0x00, 0x00, 0x00, 0x00, 0x00, 0x0f, 0x69, 0x06, 0x00, 0x00, 0x00, 0x00]).toBool = true := by decide +kernel

/-- okdmr/tests/kaitai/hytera/test_text_message_protocol.py:11 -/
example : (fromBytes Hytera.TextMessageProtocol.read [0x00, 0x01, 0x41, 0x00, 0x48, 0x00, 0x19, 0x80, 0x4a, 0x00, 0x20, 0x00, 0x54, 0x00, 0x41, 0x00, 0x44, 0x00, 0x59, 0x00, 0x20, 0x00, 0x4d, 0x00, 0x41, 0x00, 0x52, 0x00, 0x45, 0x00, 0x4b, 0x00, 0x00, 0x00, 0x00, 0x00, 0x00, 0x00, 0x00, 0x00, 0x00, 0x00, 0x00, 0x00]).toBool = true := by decide +kernel

/-- okdmr/tests/kaitai/hytera/test_text_message_protocol.py:13 -/
example : (fromBytes Hytera.TextMessageProtocol.read [0x09, 0x80, 0xa1, 0x00, 0x22, 0x00, 0x00, 0x00, 0x01, 0x0a, 0x01, 0xb2, 0x07, 0x0a, 0x03, 0x64, 0x0e, 0x4f, 0x00, 0x4c, 0x00, 0x49, 0x00, 0x56, 0x00, 0x45, 0x00, 0x52, 0x00, 0x20, 0x00, 0x54, 0x00, 0x45, 0x00, 0x53, 0x00, 0x54, 0x00, 0x7a, 0x03]).toBool = true := by decide +kernel

/-- okdmr/tests/kaitai/motorola/test_ars.py:12 -/
example : (fromBytes Motorola.AutomaticRegistrationService.read [0x00, 0x0c, 0xf0, 0x20, 0x07, 0x32, 0x33, 0x30, 0x38, 0x30, 0x39, 0x34, 0x00, 0x00, 0x00]).toBool = true := by decide +kernel

/-- okdmr/tests/kaitai/motorola/test_message_protocol.py:10 -/
example : (fromBytes Motorola.TextMessageProtocol.read [0x00, 0x10, 0xe0, 0x00, 0x93, 0x04, 0x0d, 0x00, 0x0a, 0x00, 0x41, 0x00, 0x48, 0x00, 0x4f, 0x00, 0x4a, 0x00]).toBool = true := by decide +kernel

/-! ### Asserted values -/

section
open Hytera

/-- okdmr/tests/kaitai/hytera/test_radio_ip.py:4-17 -/
def checkRadioIp (b : Bytes) (subnet id : Nat) (ip : String) : Bool :=
  match fromBytes RadioIp.read b with
  | .ok x => x.subnet == subnet && x.radio_id == id && x.radio_ip == ip.toList
  | .error _ => false

example : checkRadioIp [0x0a, 0x00, 0x00, 0x01] 10 1 "10.0.0.1" = true := by decide +kernel
example : checkRadioIp [0x0a, 0x00, 0x00, 0x50] 10 80 "10.0.0.80" = true := by decide +kernel
example : checkRadioIp [0x50, 0x01, 0x17, 0x2d] 80 71469 "80.1.23.45" = true := by decide +kernel
example : checkRadioIp [0x50, 0x0c, 0x22, 0x38] 80 795192 "80.12.34.56" = true := by decide +kernel
example : checkRadioIp [0x0a, 0x0a, 0x00, 0x01] 10 655361 "10.10.0.1" = true := by decide +kernel
example : checkRadioIp [0x0a, 0x21, 0x10, 0xdd] 10 2167005 "10.33.16.221" = true := by decide +kernel

/-- okdmr/tests/kaitai/hytera/test_location_protocol.py:29-60 `test_parse_standard_answer` -/
example : (match fromBytes LocationProtocol.read [0xa0, 0x02, 0x00, 0x32, 0x20, 0x00, 0x00, 0x01, 0x0a, 0x03, 0x64, 0x0e, 0x00, 0x00, 0x41, 0x31, 0x36, 0x32, 0x32, 0x32, 0x33, 0x33, 0x31, 0x31, 0x30, 0x31, 0x38, 0x4e, 0x34, 0x37, 0x33, 0x36, 0x2e, 0x36, 0x39, 0x37, 0x37, 0x45, 0x30, 0x30, 0x37, 0x33, 0x39, 0x2e, 0x32, 0x36, 0x38, 0x30, 0x30, 0x2e, 0x30, 0x30, 0x30, 0x35, 0x89, 0x03] with
    | .ok { opcode_header := h, data := some (.standardAnswer x), .. } =>
      decide (h = .known .standard_answer ∧ x.result = .known .ok ∧ x.radio_ip.subnet = 10 ∧
        x.gpsdata = { gps_status := [0x41], gps_time := [0x31, 0x36, 0x32, 0x32, 0x32, 0x33], gps_date := [0x33, 0x31, 0x31, 0x30, 0x31, 0x38], north_south := [0x4e], latitude := [0x34, 0x37, 0x33, 0x36, 0x2e, 0x36, 0x39, 0x37, 0x37], east_west := [0x45], longitude := [0x30, 0x30, 0x37, 0x33, 0x39, 0x2e, 0x32, 0x36, 0x38, 0x30], speed := [0x30, 0x2e, 0x30], direction := [0x30, 0x30, 0x35] })
    | _ => false) = true := by decide +kernel

/-- okdmr/tests/kaitai/hytera/test_location_protocol.py:63-98 `test_parse_condition_report_rssi` -/
example : (match fromBytes LocationProtocol.read [0xd0, 0x04, 0x00, 0x34, 0x00, 0x00, 0x15, 0xc8, 0x0a, 0x00, 0x00, 0x03, 0x00, 0x00, 0x41, 0x31, 0x38, 0x34, 0x30, 0x33, 0x30, 0x30, 0x36, 0x31, 0x32, 0x32, 0x31, 0x4e, 0x34, 0x37, 0x32, 0x34, 0x2e, 0x30, 0x31, 0x35, 0x38, 0x45, 0x30, 0x30, 0x37, 0x33, 0x31, 0x2e, 0x31, 0x30, 0x37, 0x33, 0x30, 0x2e, 0x30, 0x32, 0x30, 0x37, 0xff, 0xc6, 0x63, 0x03] with
    | .ok { opcode_header := h, data := some (.conditionReportWithRssi x), .. } =>
      decide (h = .known .condition_report_with_rssi ∧ x.result = .known .ok ∧ x.radio_ip.subnet = 10 ∧
        x.gpsdata = { gps_status := [0x41], gps_time := [0x31, 0x38, 0x34, 0x30, 0x33, 0x30], gps_date := [0x30, 0x36, 0x31, 0x32, 0x32, 0x31], north_south := [0x4e], latitude := [0x34, 0x37, 0x32, 0x34, 0x2e, 0x30, 0x31, 0x35, 0x38], east_west := [0x45], longitude := [0x30, 0x30, 0x37, 0x33, 0x31, 0x2e, 0x31, 0x30, 0x37, 0x33], speed := [0x30, 0x2e, 0x30], direction := [0x32, 0x30, 0x37] })
    | _ => false) = true := by decide +kernel

/-- okdmr/tests/kaitai/hytera/test_location_protocol.py:34-38,68-75 property `opcode` -/
example : (LocationProtocol.computeOpcode (Stream.new [0xa0, 0x02, 0x00, 0x32])).1 = .ok (.known .standard_location_immediate_service) ∧
    (LocationProtocol.computeOpcode (Stream.new [0xd0, 0x04, 0x00, 0x34])).1 = .ok (.known .condition_triggered_reporting_service) := by decide +kernel

/-- okdmr/tests/kaitai/hytera/test_rcp.py:12-16 -/
example : fromBytes RadioControlProtocol.read [0x04, 0x00, 0x05, 0x00, 0x64, 0x00, 0x00, 0x00, 0x01] =
    .ok { service_type := .known .radio_identification_request, message_length := 5, data := .genericData { data := [0x64, 0x00, 0x00, 0x00, 0x01] } } := by decide +kernel

end

section
open Etsi

/-- okdmr/tests/kaitai/etsi/test_full_link_control.py:5-14 -/
example : (match fromBytes FullLinkControl.read [0x00, 0x00, 0x00, 0x00, 0x00, 0x09, 0x28, 0x07, 0x22, 0x50, 0x47, 0x78] with
    | .ok { specific_data := some (.groupVoiceChannelUser x), crc_checksum := c, cs5_checksum := d, .. } =>
      decide (x.group_address = 9 ∧ x.source_address = 2623266 ∧ c = some [0x50, 0x47, 0x78] ∧ d = none)
    | _ => false) = true := by decide +kernel

/-- okdmr/tests/kaitai/etsi/test_full_link_control.py:17-29 -/
example : (match fromBytes FullLinkControl.read [0x00, 0x00, 0x00, 0x00, 0x08, 0x65, 0x20, 0xba, 0xf8, 0x88] with
    | .ok { full_link_control_opcode := o, feature_set_id := f, specific_data := some (.groupVoiceChannelUser x), crc_checksum := c, cs5_checksum := d, .. } =>
      decide (o = .known .group_voice ∧ f = .known .standardized_ts_102_361_2 ∧ x.group_address = 2149 ∧ x.source_address = 2145016 ∧
        x.service_options = 0 ∧ c = none ∧ d ≠ none)
    | _ => false) = true := by decide +kernel

end

section
open Homebrew

/-- okdmr/tests/kaitai/homebrew/test_mmdvm.py:8-13 -/
example : fromBytes Mmdvm2020.read [0x44, 0x4d, 0x52, 0x41, 0x00, 0x06, 0x6b, 0x0c, 0x23, 0x37, 0xfa, 0x00, 0xcc, 0x00, 0x4f, 0x00, 0x4b, 0x00, 0x34] = .error .unicode := by decide +kernel

end

section
open Motorola MotorolaUtils

/-- okdmr/tests/kaitai/motorola/test_ars.py:11-32 -/
example : (match fromBytes AutomaticRegistrationService.read [0x00, 0x0c, 0xf0, 0x20, 0x07, 0x32, 0x33, 0x30, 0x38, 0x30, 0x39, 0x34, 0x00, 0x00, 0x00] with
    | .ok { message_size := n, message_header := h, pdu_content := some (.deviceRegistrationMessage x), .. } =>
      decide (n = 3072 ∧ h = { extension_bit := true, acknowledgement_bit := true, priority := true, control_user_bit := true, pdu_type := 0 } ∧
        x = { device_registration_message_header := some { extension_bit := false, event := .known .initial_event, encoding := 0 }, len_device_identifier := 7, device_identifier := some [0x32, 0x33, 0x30, 0x38, 0x30, 0x39, 0x34], len_user_identifier := 0, user_identifier := none, len_password := 0, password := none })
    | _ => false) = true := by decide +kernel

/-- okdmr/tests/kaitai/motorola/test_message_protocol.py:8-32 -/
example : (match fromBytes TextMessageProtocol.read [0x00, 0x10, 0xe0, 0x00, 0x93, 0x04, 0x0d, 0x00, 0x0a, 0x00, 0x41, 0x00, 0x48, 0x00, 0x4f, 0x00, 0x4a, 0x00] with
    | .ok { message_size := n, message_header := h, len_address := l, pdu_content := some (.textMessage x), .. } =>
      decide (n = 16 ∧ l = 0 ∧ h = { extension_bit := true, acknowledgement_required := true, reserved := true, control_user_bit := false, pdu_type := 0 } ∧
        x = { text_message_header_sequence_and_encoding := some { has_encoding_header := true, reserved_1 := 0, sequence_number_lsb_bits := 19, header_encoding_extension := some false, sequence_number_msb_bits := some 0, encoding := 4 }, text_message := ['\r', '\n', 'A', 'H', 'O', 'J'] })
    | _ => false) = true := by decide +kernel

/-- okdmr/tests/kaitai/motorola/test_mbxml.py:11-17 -/
example : (fromBytes MotorolaBinaryXml.Uintvar.read [0x25]).map (uintvar_to_int ·.payload) = .ok 0x25 ∧
    (fromBytes MotorolaBinaryXml.Uintvar.read [0x81, 0x20]).map (uintvar_to_int ·.payload) = .ok 0xA0 ∧
    (fromBytes MotorolaBinaryXml.Uintvar.read [0x82, 0x8f, 0x25]).map (uintvar_to_int ·.payload) = .ok 0x87A5 := by decide +kernel

/-- okdmr/tests/kaitai/motorola/test_mbxml.py:20-29 -/
example : (fromBytes MotorolaBinaryXml.Sintvar.read [0x65]).map (sintvar_to_int ·.payload) = .ok (.ok (-0x25)) ∧
    (fromBytes MotorolaBinaryXml.Sintvar.read [0xc1, 0x20]).map (sintvar_to_int ·.payload) = .ok (.ok (-0xA0)) := by decide +kernel

/-- okdmr/tests/kaitai/motorola/test_mbxml.py:73-84 -/
example : (fromBytes MotorolaBinaryXml.read [0x05, 0x08, 0x22, 0x04, 0x24, 0x68, 0xac, 0xe0, 0x51, 0x62]).map (·.documents.map (·.document_id)) =
    .ok [.known .lrrp_immediate_request_ncdt] := by decide +kernel

end

end Dmr
