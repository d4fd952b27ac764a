{"id": "C01", "title": "Bit reads are consecutive MSB-first slices", "statement": "Reading consecutive bit fields of widths w1..wk from a byte string yields exactly the consecutive most-significant-bit-first slices of that byte string, and raises EOFError exactly when the requested bits exceed what is left; in particular reading w1+w2 bits at once is the same as reading w1 then w2 and concatenating.", "quantifier": "every byte string, every starting bit position, every list of widths", "why_tests_cant": "widths and buffers are unbounded; bugs appear only for particular alignment/width combinations", "anchors": ["okdmr/kaitai/etsi/dmr_csbk.py:DmrCsbk._read", "okdmr/kaitai/etsi/full_link_control.py:FullLinkControl._read", "okdmr/kaitai/homebrew/mmdvm2020.py:TypeRadioPosition._read"]}
{"id": "C02", "title": "Byte reads drop a partially consumed byte and never invent data", "statement": "A byte-granular read issued after bit reads discards the unread bits of the current byte and returns a contiguous slice of the input; for every sequence of bit/byte/read-to-end operations the stream position never exceeds the size and never moves backwards.", "quantifier": "every byte string and every finite history of read operations", "why_tests_cant": "the histories of mixed reads are unbounded", "anchors": ["okdmr/kaitai/etsi/dmr_ip_udp.py:UdpIpv4CompressedHeader._read", "okdmr/kaitai/etsi/dmr_data.py:Rate34Confirmed._read"]}
{"id": "C03", "title": "Unknown enum codes are preserved", "statement": "For every enumeration in the library and every integer on the wire, the decoded field either is the unique member with that value or is the integer itself; the original integer is always recoverable, two different codes never decode to the same field value, and no enumeration has two members with one value.", "quantifier": "every enumeration, every integer code", "why_tests_cant": "the set of undefined codes is open-ended; each test pins one code", "anchors": ["all modules: KaitaiStream.resolve_enum calls"]}
{"id": "C04", "title": "Text decoding is exact", "statement": "Every text field decoded as ASCII, UTF-8, UTF-16LE or UTF-16BE is the unique string whose encoding is the consumed bytes; if no such string exists UnicodeDecodeError is raised.", "quantifier": "every byte string of every length", "why_tests_cant": "invalid sequences (lone surrogates, overlong forms, truncation) are too many to enumerate", "anchors": ["okdmr/kaitai/hytera/text_message_protocol.py:TextMessageProtocol._read", "okdmr/kaitai/motorola/text_message_protocol.py:TextMessage._read", "okdmr/kaitai/homebrew/homebrew2015.py:Homebrew2015._read", "okdmr/kaitai/hytera/datetimestring.py", "okdmr/kaitai/hytera/radio_control_protocol.py:RadioIdentificationReply"]}
{"id": "C05", "title": "Radio address decoding", "statement": "For every 4 bytes a.b.c.d, RadioIp.from_bytes gives subnet a, radio_id = b*65536+c*256+d and radio_ip the dotted decimal text 'a.b.c.d'; the dotted text determines the four bytes; RadioId drops the first (lowest) byte and yields the following three little-endian. Fewer than 4 bytes raise EOFError.", "quantifier": "every byte string", "why_tests_cant": "2^32 addresses", "anchors": ["okdmr/kaitai/hytera/radio_ip.py:RadioIp", "okdmr/kaitai/hytera/radio_id.py:RadioId"]}
{"id": "C06", "title": "GPS record layout", "statement": "Gpsdata.from_bytes succeeds iff at least 40 bytes are given; its nine fields are, in order, the adjacent slices of sizes 1,6,6,1,9,1,10,3,3 of the first 40 bytes (nothing skipped, nothing overlapping) and gps_available is true iff the status byte is 'A' (UnicodeDecodeError iff that byte is not ASCII).", "quantifier": "every byte string", "why_tests_cant": "2^320 records", "anchors": ["okdmr/kaitai/hytera/gpsdata.py:Gpsdata"]}
{"id": "C07", "title": "Location Protocol dispatch and layout", "statement": "For every location message the opcode selects exactly one documented body, whose fields are at the documented offsets after the 4 byte header; a body shorter than its documented size raises EOFError (or UnicodeDecodeError, if a text field that is complete before the cut is not valid), an unknown or unhandled opcode yields no body.", "quantifier": "every byte string, every opcode", "why_tests_cant": "17 bodies times unbounded contents", "anchors": ["okdmr/kaitai/hytera/location_protocol.py:LocationProtocol"]}
{"id": "C08", "title": "Location Protocol general opcode only works stand-alone", "statement": "LocationProtocol.opcode names the service family (A0/B0/C0/D0/E0) of the message's own first byte when the message is parsed on its own, in any history of accesses and without disturbing the stream; when the message is embedded in an HDAP/HRNP/HSTRP frame it is instead computed from the first byte of the whole frame, so it never is a service family there.", "quantifier": "every message and every frame containing it, every history of accesses", "why_tests_cant": "depends on the enclosing frame, not on the message; a stand-alone test cannot see it", "anchors": ["okdmr/kaitai/hytera/location_protocol.py:LocationProtocol.opcode", "okdmr/kaitai/hytera/hytera_dmr_application_protocol.py"]}
{"id": "C09", "title": "Telemetry Protocol decoding, stand-alone and embedded", "statement": "A stand-alone telemetry message is decoded according to its 16 bit opcode with fields at the documented offsets; the same message inside an HDAP frame never gets a body, whatever its contents, because the opcode is taken from the beginning of the frame, and the frame is then accepted only if its 7th byte happens to be 03.", "quantifier": "every byte string, every enclosing frame", "why_tests_cant": "the failure depends on the composition of two parsers for every payload", "anchors": ["okdmr/kaitai/hytera/telemetry_protocol.py:TelemetryProtocol.specific_service", "okdmr/kaitai/hytera/hytera_dmr_application_protocol.py:HyteraDmrApplicationProtocol._read"]}
{"id": "C10", "title": "Hytera text message lengths", "statement": "For private and group text messages the text is exactly message_length-12 bytes (minus option length and its two byte length field when the option flag is set) of UTF-16LE located after the addresses; if the declared length is too small ValueError is raised, if bytes are missing EOFError, if undecodable UnicodeDecodeError; acknowledgements carry a result and no text; group acknowledgements carry no source address.", "quantifier": "every byte string, every declared length", "why_tests_cant": "lengths up to 65535 and arbitrary contents", "anchors": ["okdmr/kaitai/hytera/text_message_protocol.py:TextMessageProtocol"]}
{"id": "C11", "title": "Data transmit slices", "statement": "A DTP request/slice carries exactly message_length-10 bytes of file name/file data after two addresses and a 16 bit number, ValueError if message_length<10, EOFError if truncated; every answer type carries addresses and a result at fixed offsets; unknown types carry no body.", "quantifier": "every byte string, every declared length", "why_tests_cant": "lengths up to 65535 and arbitrary contents", "anchors": ["okdmr/kaitai/hytera/data_transmit_protocol.py:DataTransmitProtocol"]}
{"id": "C12", "title": "Data delivery state layout", "statement": "DataDeliveryStates.from_bytes succeeds iff at least 11 bytes are given and every field is the documented slice.", "quantifier": "every byte string", "why_tests_cant": "2^88 messages", "anchors": ["okdmr/kaitai/hytera/data_delivery_states.py:DataDeliveryStates"]}
{"id": "C13", "title": "Radio registration service", "statement": "RRS requires a leading 00 byte; result is present iff the type is an acknowledgement (80 or 82) and valid_time iff it is a registration acknowledgement (80); message size is 8, 9 or 13 bytes accordingly and shorter input raises EOFError.", "quantifier": "every byte string", "why_tests_cant": "all type codes with all truncations", "anchors": ["okdmr/kaitai/hytera/radio_registration_service.py:RadioRegistrationService"]}
{"id": "C14", "title": "Radio Control Protocol dispatch and length", "statement": "RCP service types are little-endian; every service type without a dedicated body yields exactly message_length payload bytes; dedicated bodies sit at documented offsets; a broadcast configuration request yields exactly as many pairs as announced; the identification reply consumes 0, 6, 198 or 206 bytes depending on message_length (<6, <198, <206, otherwise).", "quantifier": "every byte string, every declared length and count", "why_tests_cant": "lengths up to 65535, counts up to 255", "anchors": ["okdmr/kaitai/hytera/radio_control_protocol.py:RadioControlProtocol"]}
{"id": "C15", "title": "HDAP framing", "statement": "HyteraDmrApplicationProtocol.from_bytes reads the reliability flag from the top bit and the protocol from the low seven bits, parses that protocol's message immediately after the first byte, then one checksum byte and the footer 03; any other footer raises ValidationNotEqualError. Parsing an encoded frame gives back the encoded flag, protocol, message and checksum and consumes exactly the frame, wherever the frame lies in a larger buffer (telemetry frames excepted: C09).", "quantifier": "every frame, every position, every following data", "why_tests_cant": "nested variable-length formats", "anchors": ["okdmr/kaitai/hytera/hytera_dmr_application_protocol.py:HyteraDmrApplicationProtocol"]}
{"id": "C16", "title": "HRNP header", "statement": "HRNP requires leading 7E and 12 header bytes whose fields are at the documented offsets; HDAP data is parsed (at offset 12) iff the opcode byte is 00.", "quantifier": "every byte string", "why_tests_cant": "all opcodes and all truncations", "anchors": ["okdmr/kaitai/hytera/hytera_radio_network_protocol.py:HyteraRadioNetworkProtocol"]}
{"id": "C17", "title": "HSTRP always terminates and never loses bytes", "statement": "Parsing any byte string as HSTRP terminates; options are read iff the option flag is set, it is not a heartbeat and bytes remain, and are chained by their continuation bit; application frames are read iff bytes remain and none of reject/close/connect is set; whatever is left is returned as extra data, so that header, options, frames and extra data account for every input byte.", "quantifier": "every byte string; every number of options and frames", "why_tests_cant": "unbounded loops driven by input", "anchors": ["okdmr/kaitai/hytera/hytera_simple_transport_reliability_protocol.py"]}
{"id": "C18", "title": "HSTRP round trip", "statement": "Any list of well-formed options (all but the last with continuation bit) followed by any list of well-formed HDAP frames decodes back to exactly those lists (telemetry frames excepted: they are read as seven bytes without a body, C09).", "quantifier": "every list of options and frames", "why_tests_cant": "unbounded lists", "anchors": ["okdmr/kaitai/hytera/hytera_simple_transport_reliability_protocol.py", "okdmr/kaitai/hytera/hytera_dmr_application_protocol.py"]}
{"id": "C19", "title": "IPSC packet layout", "statement": "IpSiteConnectProtocol.from_bytes succeeds iff at least 72 bytes are given with 5A5A at offset 2; every field is at the documented offset with documented endianness; all bytes beyond 72 are returned as extra_data, which exists iff there are any; a wrong marker raises ValidationNotEqualError as soon as 4 bytes are present.", "quantifier": "every byte string", "why_tests_cant": "2^576 packets", "anchors": ["okdmr/kaitai/hytera/ip_site_connect_protocol.py:IpSiteConnectProtocol"]}
{"id": "C20", "title": "IPSC derived values under any access history", "statement": "source_radio_id, destination_radio_id (24 bit little-endian at offsets 68 and 64), color_code (low nibble of byte 20) and is_wakeup give the same value on every access in any order and never change other attributes; is_wakeup holds iff call type is 2 or 12 or slot type is DDDD.", "quantifier": "every packet and every history of property accesses", "why_tests_cant": "histories of cached property accesses are unbounded", "anchors": ["okdmr/kaitai/hytera/ip_site_connect_protocol.py:IpSiteConnectProtocol"]}
{"id": "C21", "title": "IPSC heartbeat classification", "statement": "The heartbeat class depends only on the size: 1 byte must be 00, 20 bytes must be the ping/pong pattern with a free sequence byte at offset 12, any other size (including empty) is returned verbatim as unknown; nothing else is accepted or rejected.", "quantifier": "every byte string", "why_tests_cant": "all sizes and contents", "anchors": ["okdmr/kaitai/hytera/ip_site_connect_heartbeat.py:IpSiteConnectHeartbeat"]}
{"id": "C22", "title": "RTP audio and padding partition the packet", "statement": "For every accepted RTP packet, header, CSRC list (num_csrc entries), optional 18 byte extension, audio_data and padding concatenate to the input; audio_data has size-header-padding bytes with padding length the last byte iff the padding flag is set; if that length exceeds the payload ValueError is raised; version other than 2 raises ValidationNotEqualError.", "quantifier": "every byte string", "why_tests_cant": "all sizes, flags and padding lengths", "anchors": ["okdmr/kaitai/hytera/real_time_transport_protocol.py:RealTimeTransportProtocol"]}
{"id": "C23", "title": "CSBK layout", "statement": "DmrCsbk.from_bytes reads last-block, protect, 6 bit opcode, 8 bit feature set, and for each of the six supported opcodes all fields at the ETSI bit offsets; other opcodes yield no body; truncated input raises EOFError.", "quantifier": "every byte string", "why_tests_cant": "2^80 blocks", "anchors": ["okdmr/kaitai/etsi/dmr_csbk.py:DmrCsbk"]}
{"id": "C24", "title": "Data header dispatch and layout", "statement": "DmrDataHeader.from_bytes needs one byte; .data decodes the first 12 bytes according to the low nibble of byte 0 with all fields at ETSI bit offsets, undefined formats returning the raw 12 bytes; appended_blocks is msb*16+lsb.", "quantifier": "every byte string", "why_tests_cant": "2^96 headers", "anchors": ["okdmr/kaitai/etsi/dmr_data_header.py:DmrDataHeader"]}
{"id": "C25", "title": "Data header .data is stable under any access history", "statement": "However often .data is accessed, successful accesses always return the same object contents and leave the stream position unchanged; with fewer than 12 bytes every access raises EOFError and no access ever succeeds.", "quantifier": "every byte string and every number of accesses", "why_tests_cant": "unbounded histories with a failing path that does not restore the position", "anchors": ["okdmr/kaitai/etsi/dmr_data_header.py:DmrDataHeader.data"]}
{"id": "C26", "title": "Data block layout", "statement": "Each of the thirteen DmrData block types succeeds iff enough bytes are present (12, 18 or 24 depending on rate), and serial number (7 bits), CRC-9 (9 bits), user data and message CRC partition the block with no bit lost.", "quantifier": "every byte string", "why_tests_cant": "up to 2^192 blocks", "anchors": ["okdmr/kaitai/etsi/dmr_data.py:DmrData"]}
{"id": "C27", "title": "Compressed UDP/IPv4 header", "statement": "Each UDP port field is present iff the corresponding 7 bit port id is 0; user_data is everything that follows; the parts partition the input.", "quantifier": "every byte string", "why_tests_cant": "all sizes", "anchors": ["okdmr/kaitai/etsi/dmr_ip_udp.py:DmrIpUdp.UdpIpv4CompressedHeader"]}
{"id": "C28", "title": "Full Link Control checksums by size", "statement": "For supported opcodes: 9 bytes or fewer raise EOFError, 10 bytes give a 5 bit checksum and no CRC, 11 bytes give neither, 12 or more give a 3 byte CRC at offset 9 and no 5 bit checksum; all address/GPS/alias fields are at their bit offsets.", "quantifier": "every byte string", "why_tests_cant": "all sizes, opcodes, contents", "anchors": ["okdmr/kaitai/etsi/full_link_control.py:FullLinkControl"]}
{"id": "C29", "title": "Homebrew 2015 dispatch", "statement": "The 4 byte prefix selects the body; fixed magic continuation bytes are enforced with ValidationNotEqualError; fields are at documented offsets; a prefix that is not valid UTF-8 raises UnicodeDecodeError and an unknown prefix yields no body.", "quantifier": "every byte string", "why_tests_cant": "2^32 prefixes, all contents", "anchors": ["okdmr/kaitai/homebrew/homebrew2015.py:Homebrew2015"]}
{"id": "C30", "title": "MMDVM 2020 dispatch", "statement": "The 4 byte ASCII prefix selects the body; magic continuation bytes are enforced; fields are at documented offsets; a non-ASCII prefix raises UnicodeDecodeError and an unknown prefix yields no body.", "quantifier": "every byte string", "why_tests_cant": "2^32 prefixes, all contents", "anchors": ["okdmr/kaitai/homebrew/mmdvm2020.py:Mmdvm2020"]}
{"id": "C31", "title": "DMR data packets: optional BER and RSSI", "statement": "For a DMRD packet of 53 bytes neither bit error rate nor RSSI is present, with 54 only the bit error rate, with 55 or more both; shorter packets raise EOFError; ids, flags and the 33 byte burst are at documented offsets, identically in both homebrew dialects.", "quantifier": "every byte string", "why_tests_cant": "all sizes and contents", "anchors": ["okdmr/kaitai/homebrew/homebrew2015.py:TypeDmrData", "okdmr/kaitai/homebrew/mmdvm2020.py:TypeDmrData"]}
{"id": "C32", "title": "Configuration versus closing ambiguity", "statement": "An RPTC packet is decoded as closing iff its 5th byte is 'L'; a configuration packet whose (big-endian) repeater id is at most 999999999 is never mistaken for closing and never fails on the 5th byte; an id with top byte 4C is always mistaken.", "quantifier": "every repeater id and every packet body", "why_tests_cant": "2^32 ids", "anchors": ["okdmr/kaitai/homebrew/homebrew2015.py:fifth_letter", "okdmr/kaitai/homebrew/mmdvm2020.py:fifth_letter"]}
{"id": "C33", "title": "uintvar decoding inverts the 7 bit encoding", "statement": "For every natural number, encoding it in 7 bit groups with continuation bits, parsing it and converting the payload gives the number back and consumes exactly the encoding; the conversion of k groups is below 128^k; leading zero groups do not change the value.", "quantifier": "every natural number, every following data", "why_tests_cant": "unbounded integers", "anchors": ["okdmr/kaitai/motorola/motorola_utils.py:uintvar_to_int", "okdmr/kaitai/motorola/motorola_binary_xml.py:Uintvar"]}
{"id": "C34", "title": "uintvar/sintvar parsing terminates and stops at the first clear continuation bit", "statement": "Parsing consumes exactly up to the first byte with clear top bit or to the end of input if there is none; empty input raises EOFError; the payload is the consumed bytes.", "quantifier": "every byte string", "why_tests_cant": "unbounded inputs", "anchors": ["okdmr/kaitai/motorola/motorola_binary_xml.py:Uintvar", "okdmr/kaitai/motorola/motorola_binary_xml.py:Sintvar"]}
{"id": "C35", "title": "sintvar conversion", "statement": "sintvar_to_int returns the encoded number for every negative number and zero; it is wrong for every positive number (it clears the top data bit instead of the sign bit).", "quantifier": "every integer", "why_tests_cant": "unbounded integers", "anchors": ["okdmr/kaitai/motorola/motorola_utils.py:sintvar_to_int", "okdmr/kaitai/motorola/motorola_utils.py:clear_msb"]}
{"id": "C36", "title": "float conversion", "statement": "ufloatvar_to_float and sfloatvar_to_float return integer part plus fraction/128^k (exactly whenever the exact value has at most 53 significant bits); otherwise the sum of the correctly rounded parts, correctly rounded (to nearest, ties to even), so within 2^-51 of the value and 2^-1073 of it; OverflowError exactly for integer parts from 2^1024 - 2^970 on; positive signed numbers lose the top data bit of the integer part as in C35; the exact fraction lies in [0,1); the sign of sfloatvar is the sign bit of the first byte.", "quantifier": "every pair of payloads", "why_tests_cant": "unbounded payload lengths; floating-point rounding", "anchors": ["okdmr/kaitai/motorola/motorola_utils.py:ufloatvar_to_float", "okdmr/kaitai/motorola/motorola_utils.py:sfloatvar_to_float"]}
{"id": "C37", "title": "Binary XML document list", "statement": "MotorolaBinaryXml.from_bytes terminates on every input; it never returns more than one document, and raises EOFError whenever the first document ends exactly at the end of input.", "quantifier": "every byte string", "why_tests_cant": "loop condition behaviour for all inputs", "anchors": ["okdmr/kaitai/motorola/motorola_binary_xml.py:MotorolaBinaryXml._read"]}
{"id": "C38", "title": "ARS registration fields", "statement": "A device registration message decodes length-prefixed device id, user id and password in order, each present iff its length is positive; acknowledgement sub-headers depend on extension and acknowledgement bits; everything left is unparsed_data; the parts account for all bytes.", "quantifier": "every byte string, every lengths", "why_tests_cant": "unbounded contents", "anchors": ["okdmr/kaitai/motorola/automatic_registration_service.py:AutomaticRegistrationService"]}
{"id": "C39", "title": "Motorola text message body and sequence number", "statement": "The body type is selected by ack/control/pdu bits; the text is all the remaining bytes as UTF-16LE; with both header bytes present the sequence number is msb*16+lsb (which is not injective in the header bits); with a one-byte header reading sequence_number raises AttributeError and the header nevertheless swallows one byte of text.", "quantifier": "every byte string", "why_tests_cant": "all header combinations with all texts", "anchors": ["okdmr/kaitai/motorola/text_message_protocol.py:TextMessageProtocol"]}
{"id": "C40", "title": "Only documented exceptions", "statement": "For every protocol class and every byte string from_bytes terminates and either returns an object or raises EOFError, ValidationNotEqualError, UnicodeDecodeError or ValueError (each class exactly those of a per class table); no AttributeError, TypeError, IndexError or infinite loop.", "quantifier": "every protocol class, every byte string", "why_tests_cant": "every input", "anchors": ["all modules: from_bytes"]}
{"id": "C41", "title": "Trailing bytes do not change a decoded PDU", "statement": "For the protocols that do not look at the end of the stream, appending any bytes to a successfully decoded input gives the same object.", "quantifier": "every successful input, every suffix", "why_tests_cant": "every suffix", "anchors": ["okdmr/kaitai/hytera/*.py", "okdmr/kaitai/etsi/dmr_csbk.py", "okdmr/kaitai/etsi/dmr_data.py"]}
{"id": "C42", "title": "Truncation is always detected", "statement": "For the same protocols, cutting a successfully decoded message anywhere before its last consumed byte raises EOFError; a truncated PDU is never silently decoded.", "quantifier": "every successful input, every cut point", "why_tests_cant": "every cut point", "anchors": ["okdmr/kaitai/hytera/*.py", "okdmr/kaitai/etsi/dmr_csbk.py", "okdmr/kaitai/etsi/dmr_data.py"]}
{"id": "C43", "title": "No information is lost", "statement": "For every protocol class but two the consumed bytes can be reconstructed from the decoded object, wherever in a stream it was decoded, so two different PDUs never decode to equal objects. The two exceptions: full link control with the 5 bit checksum loses the last three bits, Motorola text messages whose header lacks the encoding part lose three bits; nothing else is lost in these.", "quantifier": "every pair of byte strings", "why_tests_cant": "pairs of inputs", "anchors": ["okdmr/kaitai/hytera/*.py", "okdmr/kaitai/etsi/*.py"]}
{"id": "C44", "title": "byteswap", "statement": "byteswap_bytes(data) returns len(data)-1 bytes (0 for empty input) with output byte i equal to input byte i xor 1, for even and odd lengths alike, and leaves its argument unchanged; byteswap_bytearray additionally leaves its argument pair-swapped and zero-padded to even length.", "quantifier": "every byte string", "why_tests_cant": "all lengths and contents", "anchors": ["okdmr/kaitai/tools/byteswap.py"]}
{"id": "C45", "title": "prettyprint structure", "statement": "The dictionary printed for an object has exactly the object's attributes except _io, _parent, _root and _debug, in assignment order (which pprint then sorts), with nested objects and lists (of any depth) converted recursively and all other values unchanged; no protocol object remains anywhere in dictionaries or lists.", "quantifier": "every object tree", "why_tests_cant": "unbounded nesting", "anchors": ["okdmr/kaitai/tools/prettyprint.py"]}
{"id": "C46", "title": "debug tools process messages in order and stop at the first bad one", "statement": "For any list of hex messages the tool prints the decoded form of each message in order; if a message is not valid hex or does not decode, exactly the outputs of the preceding messages are printed and the exception propagates; for IPSC packets a 'DMR DATA' line with 33 bytes follows iff the slot type is not sync.", "quantifier": "every list of messages", "why_tests_cant": "unbounded message lists", "anchors": ["okdmr/kaitai/tools/debug.py:ProtocolDebug._impl", "okdmr/kaitai/tools/debug_hytera.py", "okdmr/kaitai/tools/debug_homebrew.py", "okdmr/kaitai/tools/debug_motorola.py"]}
{"id": "C47", "title": "The Python decoders implement the published schemas", "statement": "For each of the 28 schema files and every byte string, the checked-in Python class gives the object (same attributes in the same order with the same values, same absent attributes) or the exception that the .ksy schema prescribes; the nested classes do so on any stream at any position and leave the stream as the schema says; lazily computed properties have the value of the instance of that name in the schema.", "quantifier": "every schema file, every nested type, every byte string, every stream state", "why_tests_cant": "every input; the schemas are compiled by hand, so the two can drift apart", "anchors": ["okdmr/kaitai/hytera/*.ksy", "okdmr/kaitai/etsi/*.ksy", "okdmr/kaitai/homebrew/*.ksy", "okdmr/kaitai/motorola/*.ksy", "all modules: _read"]}
{"id": "C48", "title": "Position independence", "statement": "For 148 classes a structure decodes in the same way wherever in a stream it starts: with any bytes in front of it, the class gives the same object or raises the same exception as from_bytes on the structure alone, and leaves the stream that many bytes further on; so do Hytera application messages other than telemetry. For the eight remaining classes (telemetry and the three frames around it, the IPSC heartbeat, full link control, the Homebrew packets) this is false, because they look at the start or the size of the whole stream.", "quantifier": "every class, every prefix, every byte string", "why_tests_cant": "every prefix and every input", "anchors": ["okdmr/kaitai/hytera/*.py", "okdmr/kaitai/etsi/*.py", "okdmr/kaitai/homebrew/*.py", "okdmr/kaitai/motorola/*.py"]}
{"id": "C49", "title": "Structures that follow each other in a stream", "statement": "Constructing objects of sequential classes one after another on one KaitaiStream gives, for any list of structures of any of these classes, exactly the objects that from_bytes gives for each alone and leaves the stream right after the last; if the stream ends inside one of them, the ones before it are decoded and that one raises EOFError.", "quantifier": "every list of structures of 123 classes, every prefix and suffix, every cut point", "why_tests_cant": "unbounded lists", "anchors": ["okdmr/kaitai/hytera/*.py", "okdmr/kaitai/etsi/*.py", "okdmr/kaitai/homebrew/*.py", "okdmr/kaitai/motorola/*.py"]}
{"id": "C50", "title": "Enumeration members are named as in the schema", "statement": "For each of the 65 enumerations and every number, the member that a decoder gives for the number has the name which the schema file gives to it, and numbers without a name in the schema stay plain numbers; for every text, the Python enumeration has a member of that name iff the schema has, with the same value.", "quantifier": "every enumeration, every number, every text", "why_tests_cant": "all numbers and names; the Python enumerations are compiled by hand", "anchors": ["okdmr/kaitai/hytera/*.ksy", "okdmr/kaitai/etsi/*.ksy", "okdmr/kaitai/homebrew/*.ksy", "okdmr/kaitai/motorola/*.ksy", "all classes derived from Enum"]}
{"id": "C51", "title": "What a transmitter writes field by field is decoded to the same fields", "statement": "For every CSBK, full link control (both checksums), data header (every format), data block (every rate and kind), compressed UDP/IPv4 header, Homebrew/MMDVM voice, position and configuration packet and RTP packet: writing arbitrary field values one after the other, most significant bit first, each in the number of bits the standard gives it, and decoding the octets gives an object whose attributes are exactly these values, whatever follows the message (where the class reads up to the end of the packet, as the last field says).", "quantifier": "every value of every field, every suffix", "why_tests_cant": "all combinations of field values", "anchors": ["okdmr/kaitai/etsi/dmr_csbk.py", "okdmr/kaitai/etsi/full_link_control.py", "okdmr/kaitai/etsi/dmr_data_header.py", "okdmr/kaitai/etsi/dmr_data.py", "okdmr/kaitai/etsi/dmr_ip_udp.py", "okdmr/kaitai/homebrew/homebrew2015.py", "okdmr/kaitai/homebrew/mmdvm2020.py", "okdmr/kaitai/hytera/real_time_transport_protocol.py"]}
{"id": "C52", "title": "What a Hytera transmitter says is what the receiver decodes", "statement": "For every kind of message of the Hytera application protocols (location, text, registration, delivery states, data transmit, radio control; telemetry as a message of its own), any field values, addresses, texts and options: the octets written in the order of the protocol documents decode to an object that says the same, also inside HDAP, HRNP and HSTRP frames and, apart from telemetry and the transports, anywhere in a stream.", "quantifier": "every message, every value of every field, every text, every list of frames, every prefix and suffix", "why_tests_cant": "all combinations of field values, texts of any length", "anchors": ["okdmr/kaitai/hytera/location_protocol.py", "okdmr/kaitai/hytera/text_message_protocol.py", "okdmr/kaitai/hytera/radio_registration_service.py", "okdmr/kaitai/hytera/data_delivery_states.py", "okdmr/kaitai/hytera/data_transmit_protocol.py", "okdmr/kaitai/hytera/radio_control_protocol.py", "okdmr/kaitai/hytera/telemetry_protocol.py", "okdmr/kaitai/hytera/hytera_dmr_application_protocol.py", "okdmr/kaitai/hytera/hytera_radio_network_protocol.py", "okdmr/kaitai/hytera/hytera_simple_transport_reliability_protocol.py"]}
{"id": "C53", "title": "The Hytera decoders accept exactly what can be said", "statement": "For each Hytera application protocol (location, text, registration, delivery states, data transmit, radio control, telemetry) and for the HDAP, HRNP and HSTRP frames: from_bytes succeeds on a byte string if and only if it consists of a message that a transmitter can write (a message of a known kind, or the bare header of one of an unknown kind, with lengths that fit and valid texts) followed by anything (nothing, for HSTRP), and then gives exactly what that message says. Inside frames telemetry messages are bare headers. Likewise for IP site connect packets (what follows is their extra data), heartbeats and RTP packets (any number of sources, extension, padding), which are the whole datagram.", "quantifier": "every byte string, every message, every object", "why_tests_cant": "every input: the accepted ones and the rejected ones", "anchors": ["okdmr/kaitai/hytera/location_protocol.py", "okdmr/kaitai/hytera/text_message_protocol.py", "okdmr/kaitai/hytera/radio_registration_service.py", "okdmr/kaitai/hytera/data_delivery_states.py", "okdmr/kaitai/hytera/data_transmit_protocol.py", "okdmr/kaitai/hytera/radio_control_protocol.py", "okdmr/kaitai/hytera/telemetry_protocol.py", "okdmr/kaitai/hytera/hytera_dmr_application_protocol.py", "okdmr/kaitai/hytera/hytera_radio_network_protocol.py", "okdmr/kaitai/hytera/hytera_simple_transport_reliability_protocol.py", "okdmr/kaitai/hytera/ip_site_connect_protocol.py", "okdmr/kaitai/hytera/ip_site_connect_heartbeat.py", "okdmr/kaitai/hytera/real_time_transport_protocol.py"]}
{"id": "C54", "title": "No amplification", "statement": "For every class, every stream and every position: the bytes, characters and list entries held by a decoded object, at any depth, are together at most the number of bytes consumed to decode it, whatever the length and count fields in the input say; so an object made by from_bytes never holds more than the packet.", "quantifier": "every class, every byte string, every position, every nesting of lists and objects", "why_tests_cant": "hostile length and count fields, unbounded inputs", "anchors": ["okdmr/kaitai/hytera/*.py", "okdmr/kaitai/etsi/*.py", "okdmr/kaitai/homebrew/*.py", "okdmr/kaitai/motorola/*.py"]}
{"id": "C55", "title": "Properties are stable under any interleaving of accesses", "statement": "However many objects share a stream, of whatever classes, decoded from it anywhere (Homebrew packets: from its beginning), and in whatever order and however often their lazily computed properties (22 properties of 17 classes) are accessed, repeatedly, interleaved, after accesses that raised: every access gives the same value or the same exception, namely what the property is specified to be for the attributes of that object and the bytes of the stream; the attributes of no object change; and unless an access raises the position of the stream is what it was.", "quantifier": "every list of objects, every byte string and position, every sequence of accesses", "why_tests_cant": "all interleavings of accesses to objects that share one stream", "anchors": ["okdmr/kaitai/hytera/*.py", "okdmr/kaitai/etsi/dmr_data_header.py", "okdmr/kaitai/homebrew/*.py", "okdmr/kaitai/motorola/text_message_protocol.py"]}
{"id": "C56", "title": "Receiving in pieces", "statement": "For the 126 classes that do not look at the size or end of the stream: an exception other than EOFError is final (whatever bytes follow, the same exception is raised), so a receiver that collects bytes, decodes a message from the front of what it has got whenever it can and waits on EOFError ends in the same state (messages in order, remaining bytes, exception) however the bytes were cut into pieces; in particular complete messages followed by an incomplete one or by bytes that are no message give exactly these messages and keep the rest. The same holds as written in the Python source and run statement by statement, with the very same objects.", "quantifier": "every class but 7 without fields, every byte string, every list of messages, every way of cutting the bytes into pieces", "why_tests_cant": "all fragmentations of a byte stream", "anchors": ["okdmr/kaitai/hytera/*.py", "okdmr/kaitai/etsi/*.py", "okdmr/kaitai/homebrew/*.py", "okdmr/kaitai/motorola/*.py"]}
{"id": "C57", "title": "The ETSI, Homebrew and Motorola decoders accept exactly what can be sent", "statement": "For CSBKs, full link control, data headers, data blocks, compressed UDP/IPv4 headers, Homebrew 2015 and MMDVM 2020 packets, Motorola registration (ARS), text and binary XML messages: from_bytes(b) returns x if and only if b consists of the octets of something a transmitter can say (or of the fixed part of a message with an opcode, feature or command that is not in use) followed by any octets (none, where the packet has to end with the datagram; at least one, for binary XML), and x says the same; everything else raises.", "quantifier": "every byte string, every message, every object", "why_tests_cant": "every input: the accepted ones and the rejected ones", "anchors": ["okdmr/kaitai/etsi/dmr_csbk.py", "okdmr/kaitai/etsi/full_link_control.py", "okdmr/kaitai/etsi/dmr_data_header.py", "okdmr/kaitai/etsi/dmr_data.py", "okdmr/kaitai/etsi/dmr_ip_udp.py", "okdmr/kaitai/homebrew/homebrew2015.py", "okdmr/kaitai/homebrew/mmdvm2020.py", "okdmr/kaitai/motorola/automatic_registration_service.py", "okdmr/kaitai/motorola/text_message_protocol.py", "okdmr/kaitai/motorola/motorola_binary_xml.py"]}
{"id": "C58", "title": "Running the source of a decoder does what the model of it says", "statement": "For each of the 167 classes of the decoder modules, as written in its Python source (statement by statement: constructors, _read, properties used while reading, calls between objects), and every byte string: from_bytes returns an object of that class with exactly the attributes, in the order of assignment, and values at every depth that the decoder is specified to give, or raises the specified exception, and leaves the stream at the specified position; no other exception, in particular no AttributeError for an attribute that was never assigned, can be raised, except by the eleven nested classes that need attributes of an enclosing object, which always raise AttributeError (or EOFError) when used on their own.", "quantifier": "every class, every byte string", "why_tests_cant": "every input; unassigned attributes and wrong references show only on particular paths", "anchors": ["okdmr/kaitai/hytera/*.py", "okdmr/kaitai/etsi/*.py", "okdmr/kaitai/homebrew/*.py", "okdmr/kaitai/motorola/*.py"]}
{"id": "C59", "title": "Decoded objects can be navigated", "statement": "For every class and every byte string that from_bytes accepts: the object has no _parent and is its own _root; the _parent of every part, at any depth and also in lists, is the object that it is a part of, and its _root the object that was asked for, except that parts whose class is in another file have no _parent and are roots of their own; _io of all of them is the one stream; and no object is a part of two objects, or in two places of one.", "quantifier": "every class, every byte string, every object at any depth", "why_tests_cant": "every input, lists of any length, every nesting", "anchors": ["okdmr/kaitai/hytera/*.py", "okdmr/kaitai/etsi/*.py", "okdmr/kaitai/homebrew/*.py", "okdmr/kaitai/motorola/*.py"]}
{"id": "C60", "title": "Running the properties of the source gives what they are specified to be", "statement": "For each of the 22 lazily computed properties of the 17 classes that have some, as written in the Python source (there are no others), and any number of objects of these classes that share a stream, wherever they are in memory and whatever else is there, for example the parts of a decoded packet at any depth: however often and in whatever order the properties are accessed, each access returns the value, or raises the exception, that the property is specified to have for what was decoded; remembered values are returned again as they are; no access changes any other object, any attribute of any object but the remembered values, any other stream or the bytes of this stream, nor, unless an exception is raised, its position.", "quantifier": "every class with properties, every byte string, every set of objects in every memory, every sequence of accesses", "why_tests_cant": "all histories of accesses in all states of the memory", "anchors": ["okdmr/kaitai/hytera/*.py", "okdmr/kaitai/etsi/dmr_data_header.py", "okdmr/kaitai/homebrew/*.py", "okdmr/kaitai/motorola/text_message_protocol.py"]}
{"id": "C61", "title": "Running the number conversions and the byte exchange of the source gives what they are specified to give", "statement": "For the functions of motorola_utils.py and tools/byteswap.py as written in the Python source, run statement by statement: uintvar_to_int(l), for every list of groups, returns the number of which l contains the groups of seven bits; clear_msb(x) the number without its most significant one bit; sintvar_to_int(l) that of the groups with the sign of the first group (so positive numbers come out wrong), IndexError for no groups; ufloatvar_to_float and sfloatvar_to_float the correctly rounded sum with the fraction, or OverflowError exactly from 2^1024 - 2^970 on; byteswap_bytes(data) the bytes with neighbours exchanged, without the last, and leaves data alone; byteswap_bytearray the same, and exchanges the bytes of its argument in place after padding it to even length. None of them changes anything else.", "quantifier": "every list of groups of any length, every number, every byte string and bytearray, every state of the memory", "why_tests_cant": "unbounded lists and numbers; in-place effects in every state", "anchors": ["okdmr/kaitai/motorola/motorola_utils.py", "okdmr/kaitai/tools/byteswap.py"]}
{"id": "C62", "title": "Running the installed commands does what they are specified to do", "statement": "For prettyprint, ProtocolDebug._impl and the fifteen commands of pyproject.toml as written in the source, run statement by statement together with the source of the decoders: prettyprint(x) writes, for every object of the decoders in every memory, its attributes as specified (C45) and changes nothing, and prettyprint(X.from_bytes(b)) does so for every class and byte string, or writes nothing and raises the specified exception; each command (one for each of the fifteen classes, no others), given words none of which begins with a dash, writes what is specified for each word in order (C46) and ends normally, or stops at the first word that is not accepted with its exception; without words it writes nothing and ends with the usage message; _impl uses the words given to it instead of the command line if there are any, in any memory, and keeps what was written before.", "quantifier": "every command, every list of words, every class, every byte string, every memory", "why_tests_cant": "every input, object and history of the memory", "anchors": ["okdmr/kaitai/tools/prettyprint.py", "okdmr/kaitai/tools/debug.py", "okdmr/kaitai/tools/debug_hytera.py", "okdmr/kaitai/tools/debug_homebrew.py", "okdmr/kaitai/tools/debug_motorola.py", "pyproject.toml"]}
{"id": "C63", "title": "Decoding from a stream that is not fresh", "statement": "For every class of the library as written in the Python source, run statement by statement: X(io), on any stream, wherever it is (the two Homebrew classes: at its beginning), in any memory, returns the object that is specified, with all its parts, or raises the specified exception; it changes no object that existed before, its objects refer to none of them, and no other stream is touched. from_bytes(b + tail) leaves exactly the memory that from_bytes(b) leaves, and from_bytes of a proper prefix of the bytes that were used raises EOFError and leaves nothing (C41, C42). For the classes of C48, other bytes before the place where the stream is make no difference to what is made. Objects constructed one after another from one stream look like those that each message gives alone, and stay so (C49); if the stream ends inside a message, the ones before are there and EOFError is raised.", "quantifier": "every class, every memory, every stream state, every byte string, every sequence of messages", "why_tests_cant": "every memory and history of the stream", "anchors": ["okdmr/kaitai/hytera/", "okdmr/kaitai/etsi/", "okdmr/kaitai/homebrew/", "okdmr/kaitai/motorola/"]}
{"id": "C64", "title": "A decoded object tells what it was decoded from", "statement": "For every class of the library as written in the Python source, run statement by statement: the object that from_bytes(b) returns, with all its parts, looks like the specified object x (same classes, same attributes with the same values in the same order, apart from _io, _parent and _root) if and only if x is what is specified for b: different specified objects never look the same, so nothing that decoding is specified to find out is missing from the attributes. For the classes of C43, if from_bytes(b) and from_bytes(c) return objects that look the same, then both have used the same bytes.", "quantifier": "every class, all pairs of byte strings", "why_tests_cant": "all pairs of inputs and all objects", "anchors": ["okdmr/kaitai/hytera/", "okdmr/kaitai/etsi/", "okdmr/kaitai/homebrew/", "okdmr/kaitai/motorola/"]}
{"id": "C65", "title": "Running from_bytes accepts exactly the messages of the protocol, with their meaning", "statement": "For the 35 classes of C53 and C57, and for addresses, positions and times, as written in the Python source and run statement by statement: from_bytes(b) returns an object that looks like x if and only if b is a message that a transmitter of the protocol can write and that means x, with whatever octets may follow it (or one of the other accepted forms that C53 and C57 list: headers of unknown kind). DmrDataHeader.from_bytes(b).data looks like x if and only if b begins with a data header that means x; and for every property p of the library and every value v that has no parts, from_bytes(b).p is v if and only if from_bytes(b) is specified to return and p is specified to be v; in particular the number and the dotted address of a RadioIp, the number of a RadioId and the validity of a position are those of the octets.", "quantifier": "every byte string, every object, every message", "why_tests_cant": "an equivalence over all inputs and all messages", "anchors": ["okdmr/kaitai/hytera/", "okdmr/kaitai/etsi/", "okdmr/kaitai/homebrew/", "okdmr/kaitai/motorola/"]}
{"id": "C66", "title": "Decoding makes few objects, and keeps no more than was received", "statement": "Whatever the length fields, counters and announcements in a packet say: after from_bytes of any class, as written in the Python source and run statement by statement, all objects in the memory together hold no more bytes, characters and list entries than the number of bytes that were used, and there are at most 9 objects and 8 more for each of these bytes; the same of what a constructor adds to the memory when it is given a stream anywhere.", "quantifier": "every class, every byte string, every stream position, every memory", "why_tests_cant": "a packet that makes a decoder allocate without bound is an input no test has thought of", "anchors": ["okdmr/kaitai/hytera/", "okdmr/kaitai/etsi/", "okdmr/kaitai/homebrew/", "okdmr/kaitai/motorola/"]}
{"id": "C67", "title": "What was decoded stays, and a property is evaluated once", "statement": "As written in the Python source and run statement by statement, in any memory: whatever attributes and properties are looked at and whatever objects are made from whatever streams, in any order and with exceptions caught, no object disappears or changes its class, no attribute is added, removed or changed except for the values that properties remember, a remembered value stays, and the bytes of no stream change; and if looking at an attribute or property has given a value other than None, then looking at it again at any later time gives that very value (the same object), makes no object and moves no stream.", "quantifier": "every memory, every object, every attribute and property, every later sequence of uses", "why_tests_cant": "histories are unbounded; a second evaluation would show only when the stream has moved in between", "anchors": ["okdmr/kaitai/hytera/", "okdmr/kaitai/etsi/", "okdmr/kaitai/homebrew/", "okdmr/kaitai/motorola/"]}
{"id": "C68", "title": "Decoding takes time at most linear in the number of bytes", "statement": "Counting every expression that is evaluated and every statement that is executed of the Python source as one step: whatever the bytes say (length fields, counters, continuation bits), X.from_bytes(b), for every class X, takes at most 657 steps and 464 for each byte of b, whether it returns or raises; a constructor that is given a stream in any state, in any memory, at most 657 steps and 464 for each byte of the streams that is not yet read; the 151 classes without loops take at most 316 steps however many bytes there are; the first use of any property of any object, in any memory, takes at most 203 steps. Counting does not change what the program does.", "quantifier": "every class, every byte string, every memory and state of the streams, every property", "why_tests_cant": "a packet on which a decoder hangs or takes quadratic time is an input no test has thought of", "anchors": ["okdmr/kaitai/hytera/", "okdmr/kaitai/etsi/", "okdmr/kaitai/homebrew/", "okdmr/kaitai/motorola/"]}
{"id": "C69", "title": "Threads do not disturb each other", "statement": "Any number of threads in one memory, each running a function in the language of the decoders (for example X.from_bytes(data), or one that goes on to use properties of what it decoded) on its own plain arguments: however their steps are mixed (every making of an object or stream, look at an object, assignment of an attribute and use of a stream is one), a thread that has returned has returned what its function returns alone in an empty memory, up to where the objects are, with all its objects and streams, and they stay as they are whatever the others do from then on; one that has raised raises the same exception alone; no two threads have an object or stream in common; nothing that was in the memory before is changed; and a thread comes to its end after a number of its own turns that depends on its function and arguments only, for X.from_bytes(b) at most 1986 and 1392 for each byte. So it ends with the specified object, or the specified exception, whatever the other threads are and do.", "quantifier": "every number of threads, every function and arguments, every schedule, every memory", "why_tests_cant": "all interleavings of unboundedly many threads; a race shows in few schedules", "anchors": ["okdmr/kaitai/hytera/", "okdmr/kaitai/etsi/", "okdmr/kaitai/homebrew/", "okdmr/kaitai/motorola/"]}
{"id": "C70", "title": "Threads may share a decoded object", "statement": "As written in the Python source, one access to the memory at a time: any number of threads look at attributes and properties of the same objects, each at a list of its own, in any memory and any order of their steps. As long as a property is calculated from other attributes (fifteen of the twenty-two), or has been evaluated before, each thread gets the value or the exception that it would get alone, in at most 25 of its own turns for each; meanwhile no object appears or changes its class, no attribute changes except that properties remember their values, no stream moves, and afterwards each property gives what it would have given before. So after X.from_bytes(b) any number of threads that use the properties of the object get the values that are specified for b. This is not so for a property that reads from the stream and has not been evaluated: two threads that ask a freshly decoded Homebrew packet for fifth_letter can both get a wrong letter, and the packet keeps it.", "quantifier": "every memory, every number of threads, every list of attributes and properties, every schedule", "why_tests_cant": "all interleavings of unboundedly many threads; a race shows in few schedules", "anchors": ["okdmr/kaitai/hytera/", "okdmr/kaitai/etsi/", "okdmr/kaitai/homebrew/", "okdmr/kaitai/motorola/"]}
{"id": "C71", "title": "Programs that use the library do not disturb each other", "statement": "Any number of programs at work in one memory, each deciding from all that it has seen so far what to do next: X.from_bytes(b), look at an attribute or property of something that it has got, take an item of a list, ask for the class of an object, or take over something that another program has got. What a program sees (values, exceptions, and that something is an object, but not its address) depends only on the steps of the programs with which it is connected by taking over, whatever else is in the memory and whatever all the others do and in which order; what was in the memory before is not touched. A program that is connected with nobody sees, at any time, the answers to its first requests as if each were made alone, to its end, one after another, and nobody can keep it from getting on. In particular one that calls X.from_bytes(b) for a message b and then looks at properties, also those that read from the stream, sees the values that are specified for b; and if it decodes and others then take the object over, all at the same time, each of them sees the specified values of the properties (apart from those of C70 that race).", "quantifier": "every number of programs, every behaviour of each, every schedule, every memory", "why_tests_cant": "all interleavings of unboundedly many programs that run for ever", "anchors": ["okdmr/kaitai/hytera/", "okdmr/kaitai/etsi/", "okdmr/kaitai/homebrew/", "okdmr/kaitai/motorola/"]}
{"id": "C72", "title": "The two Homebrew decoders agree where they overlap", "statement": "For every byte string b: if Homebrew2015.from_bytes(b) and Mmdvm2020.from_bytes(b) both return an object with command_data, then the prefixes are equal and the two command_data have the same attributes with the same values, except that the twenty characters of the description of a repeater in 2015 are nineteen characters of description and one of slots in 2020. For the six commands that both know (RPTL, RPTK, RPTC, DMRD, MSTC, MSTN) one returns exactly if the other one does, and if they raise it is the same exception (for RPTC: one of EOFError and UnicodeDecodeError each); no RPTP or MSTP packet is accepted by both (ping and pong go the other way round); a packet with a command that only one of them knows is accepted by the other one without command_data.", "quantifier": "every byte string", "why_tests_cant": "an equivalence of two decoders over all packets", "anchors": ["okdmr/kaitai/homebrew/"]}
{"id": "C73", "title": "Which packets can be taken for those of another protocol", "statement": "For the seventeen classes that decode what comes out of a socket (those of the fifteen commands, RTP and the IPSC heartbeat), as written in the Python source and run statement by statement: no byte string is accepted by from_bytes of two of RadioRegistrationService, HyteraRadioNetworkProtocol, HyteraSimpleTransportReliabilityProtocol and RealTimeTransportProtocol, nor by RealTimeTransportProtocol and one of the two Homebrew classes, so trying them in any order gives the same answer; for every other pair of the seventeen there is a byte string that both accept; and a packet to which one of the Homebrew classes gives a command_data is accepted neither by these four nor by IpSiteConnectProtocol.", "quantifier": "every pair of classes, every byte string", "why_tests_cant": "the absence of an ambiguous packet is a statement about all byte strings", "anchors": ["okdmr/kaitai/hytera/", "okdmr/kaitai/homebrew/", "okdmr/kaitai/motorola/"]}
{"id": "C74", "title": "No packet makes the calls of the library nest deeply", "statement": "As written in the Python source and run statement by statement: with a limit of thirteen functions of the library that may be active at the same time, making an object of any class from any arguments, and any property of any object, in any memory, does what it does with any higher limit; each decoder has its own smaller limit (three for RadioId up to thirteen for HRNP, HSTRP and MBXML), properties need at most four. So no packet, however long and whatever its length fields and counters say, leads to a RecursionError. The limit is all but tight: an HRNP packet with a request for quick GPS reports needs more than eleven.", "quantifier": "every class, every list of arguments, every object and property, every memory, every higher limit", "why_tests_cant": "a packet that nests without bound is an input no test has thought of", "anchors": ["okdmr/kaitai/hytera/", "okdmr/kaitai/etsi/", "okdmr/kaitai/homebrew/", "okdmr/kaitai/motorola/"]}
{"id": "C75", "title": "Checksums and most lengths are reported, not verified", "statement": "For every byte string b that from_bytes accepts and whatever octets are put in the place of a checksum or length, from_bytes accepts the changed bytes and returns the same object but for the attribute that reports these octets: message_length of the Hytera LocationProtocol, TelemetryProtocol, DataDeliveryStates and RadioRegistrationService; packet_number, hrnp_packet_length and checksum of HyteraRadioNetworkProtocol; checksum of HyteraDmrApplicationProtocol (the octet before the last of the frame); sequence_number of HyteraSimpleTransportReliabilityProtocol and the checksum of each frame in it; message_size of the Motorola AutomaticRegistrationService and TextMessageProtocol; crc_checksum and cs5_checksum of FullLinkControl; the CRC of the data in DmrDataHeader.data; message_crc16, message_crc32 and crc9 of the DmrData blocks. So no packet is rejected for a wrong checksum, and only the caller can verify it. This is not so for message_length of DataTransmitProtocol, RadioControlProtocol and the Hytera TextMessageProtocol, which decide how much is read.", "quantifier": "every accepted byte string, every content of the checksum or length", "why_tests_cant": "that no input at all is treated differently because of its checksum cannot be sampled", "anchors": ["okdmr/kaitai/hytera/", "okdmr/kaitai/etsi/", "okdmr/kaitai/motorola/"]}
{"id": "C76", "title": "A position in an MMDVM packet and in full link control agree", "statement": "For all byte strings b and c: if Mmdvm2020.from_bytes(b) is a position report (DMRG) and FullLinkControl.from_bytes(c) is a GPS message, then the octets 7 to 13 of b are the octets 2 to 8 of c if and only if the two command_data and specific_data say the same: equal reserved, longitude and latitude, and position errors with the same name and the same number. So a gateway may copy the octets or the attributes.", "quantifier": "every pair of accepted byte strings", "why_tests_cant": "two decoders in two modules, with enumerations of their own, agree on all contents only if no content tells them apart", "anchors": ["okdmr/kaitai/homebrew/", "okdmr/kaitai/etsi/"]}
{"id": "C77", "title": "No packet makes a decoder ask for much at once", "statement": "As written in the Python source and run statement by statement: whatever the bytes say, X.from_bytes(b), for every class X, asks its stream for at most 65535 bytes at once (or the length of b, if that is more), and for at most 64 bits, whether it returns or raises; lengths that a packet gives are never longer than two octets, and what is subtracted from them is not negative. Nor does it happen later: while any number of programs decode packets of at most L bytes and use what they got (attributes, properties, what others got) in any way and order, none of them ever asks a stream for more. A packet of four bytes can reach the 65535.", "quantifier": "every class, every byte string, every number of programs, every behaviour of each, every schedule", "why_tests_cant": "a packet that makes a decoder ask for gigabytes is an input no test has thought of", "anchors": ["okdmr/kaitai/hytera/", "okdmr/kaitai/etsi/", "okdmr/kaitai/homebrew/", "okdmr/kaitai/motorola/"]}
{"id": "C78", "title": "Which version of kaitaistruct is installed makes no difference", "statement": "pyproject.toml allows every kaitaistruct from 0.10 on, and from 0.11 on seek of a stream also forgets the bits that were read ahead, so that decoders and properties that seek might read on differently. They do not. As written in the Python source and run statement by statement: X.from_bytes(b) for every class X and byte string b, making an object of any class from any arguments, and any attribute or property of any object, in any memory (also where bits were read ahead), return the same value or raise the same exception with either version, and leave the same memory; for the property data of DmrDataHeader, whatever the object, this is shown but for the memory after an AttributeError. So a program that uses the library, deciding from all that it has seen what to do next, gets the same answers with either version and leaves the same memory, if it never gets an AttributeError for data. The two versions as such do differ: reading four bits, seek(1) and reading four bits gives different numbers.", "quantifier": "every class, every byte string, every list of arguments, every object and property, every memory, every behaviour of a program", "why_tests_cant": "tests run with the one version that is installed, and a difference shows only where bits are left in the stream", "anchors": ["okdmr/kaitai/hytera/", "okdmr/kaitai/etsi/", "okdmr/kaitai/homebrew/", "okdmr/kaitai/motorola/"]}
{"id": "C79", "title": "The modules may be imported in any order", "statement": "Whatever modules of the library a program imports, in whatever order and however often: every import succeeds, with no ImportError and no NameError; the statements of a module are run once; in the end just those modules are there that were asked for and those that they need; and two programs that import the same modules in different orders have the same modules, with the same names. A module has the classes and functions of its text; a package has those of its modules that have been imported; and what a module takes from another is the very object that the other has, so that a class is the same in every module. And every name that a method or function looks up when it is called, with the classes, members of enumerations and functions in it (such as DmrCsbk.CsbkoTypes.preamble or radio_ip.RadioIp), is there, so that no rarely used branch ends in a NameError or for want of an import. With a kaitaistruct whose API is older than 0.9, the import of a decoder raises whatever was imported before, and leaves no half-made module.", "quantifier": "every list of imports, in every order and with repetitions; every name looked up by any function", "why_tests_cant": "a test imports the modules in one order, after which a missing or circular import goes unseen, and names are looked up only where a test gets", "anchors": ["okdmr/kaitai/hytera/", "okdmr/kaitai/etsi/", "okdmr/kaitai/homebrew/", "okdmr/kaitai/motorola/"]}
