{"id": "C01", "title": "Individual address <-> u16 is lossless", "statement": "Decoding any 16-bit word to an individual address and re-encoding gives the word back; encoding an individual address and decoding it gives the same address exactly when area and line both fit in 4 bits.", "quantifier": "every u16; every (area,line,address) triple of u8", "why_tests_cant": "2^16 words and 2^24 triples; the existing tests sample none of the individual-address space.", "anchors": ["src/packets/addresses.rs:IndividualAddress::to_u16", "src/packets/addresses.rs:IndividualAddress::from_u16"]}
{"id": "C02", "title": "Three-level group address <-> u16 is lossless", "statement": "Decoding any 16-bit word to a three-level group address and re-encoding gives the word back; encode-then-decode is the identity exactly when main fits in 5 bits and middle in 3 bits.", "quantifier": "every u16; every (main,middle,sub) triple of u8", "why_tests_cant": "The unit test checks two triples.", "anchors": ["src/packets/addresses.rs:Group3LevelAddress::to_u16", "src/packets/addresses.rs:Group3LevelAddress::from_u16"]}
{"id": "C03", "title": "Address encoding places every field at its KNX bit position", "statement": "KnxAddress::to_u16 of an in-range address is area*2^12+line*2^8+device (individual), main*2^11+middle*2^8+sub (3-level), main*2^11+sub (2-level) and the number itself (1-level). Distinct in-range addresses of the same kind have distinct codes.", "quantifier": "every in-range address of each of the four kinds", "why_tests_cant": "Quantifies over the whole address space of each kind.", "anchors": ["src/packets/addresses.rs:KnxAddress::to_u16", "src/packets/addresses.rs:Group2LevelAddress::to_u16"]}
{"id": "C04", "title": "Printing an address and parsing it back is the identity", "statement": "The textual (Debug) form of the address struct inside any KnxAddress (area.line.device, main/middle/sub, main/sub, main) is accepted by KnxAddress::try_from and yields the same address with the same kind.", "quantifier": "every KnxAddress", "why_tests_cant": "2^24 + 2^24 + 2^16 + 2^16 addresses.", "anchors": ["src/packets/addresses.rs:KnxAddress::try_from", "src/packets/addresses.rs:fmt::Debug"]}
{"id": "C05", "title": "Address parser accepts exactly the documented syntax", "statement": "KnxAddress::try_from accepts a string iff it is n.n.n, n, n/n or n/n/n where every n is an optional '+' followed by one or more decimal digits whose value fits (u16 for the single-level form, u8 otherwise), and then returns the address with exactly these components; it never panics.", "quantifier": "every string", "why_tests_cant": "All strings of every length.", "anchors": ["src/packets/addresses.rs:KnxAddress::try_from", "src/packets/addresses.rs:IndividualAddress::try_from", "src/packets/addresses.rs:Group3LevelAddress::try_from"]}
{"id": "C06", "title": "The two three-level group parsers agree", "statement": "Group3LevelAddress::try_from and KnxAddress::try_from agree on every string that KnxAddress parses as a three-level group address, and Group3LevelAddress accepts no other string.", "quantifier": "every string", "why_tests_cant": "All strings.", "anchors": ["src/packets/addresses.rs:Group3LevelAddress::try_from", "src/packets/addresses.rs:KnxAddress::try_from"]}
{"id": "C07", "title": "A group read and a group write are never confused on the wire", "statement": "The APDU of a group read is 00 00; the APDU of a small group write of d is 00, 0x80 + (d mod 64); of a large write is 00 80 followed by the data; no write APDU ever equals the read APDU, and different small values below 64 or different large values give different APDUs. A write built from a data point, of any type, has the same bytes (an empty small one is written as 0). Exactly: two writes have the same octets if and only if both are small and their first octets agree in the low six bits, or both are large and the same, or one is large and empty and the other small and zero in the low six bits.", "quantifier": "every value byte string, small or large", "why_tests_cant": "All byte strings.", "anchors": ["src/packets/apdu.rs:APDU::packet", "src/packets/apdu.rs:APCI::packet", "src/packets/apdu.rs:APDU::group_value_write", "src/packets/apdu.rs:APDU::group_value_write_pd"]}
{"id": "C08", "title": "Building a group write panics only for an empty small value", "statement": "APDU::group_value_write panics iff small is requested with an empty value; in every other case it returns the write APDU of the value.", "quantifier": "every byte string and small flag", "why_tests_cant": "All byte strings.", "anchors": ["src/packets/apdu.rs:APDU::group_value_write"]}
{"id": "C09", "title": "L_Data.req telegram layout", "statement": "The cEMI bytes of a group read/write to address a are 11 00, control byte (standard frame, no repetition, broadcast, priority), E0, 00 00, a in big endian, length octet, TPDU; the priority bits are the two low bits of the priority set and no other bit depends on it; the length octet is the TPDU length minus one. For a TPDU of any length the layout is the same with the length octet modulo 256; only a debug build panics instead, exactly when the length of the TPDU is a multiple of 256.", "quantifier": "every address, priority, APDU whose payload is at most 253 bytes", "why_tests_cant": "All addresses/payloads/priorities.", "anchors": ["src/packets/emi.rs:LDataReqMessage::packet", "src/packets/tpdu.rs:TPDU::packet"]}
{"id": "C10", "title": "Building a telegram never panics or lies about its length", "statement": "LDataReqMessage::packet returns normally and its length octet equals payload length + 1 for every payload. (Refuted beyond 253 bytes: the property records the exact bound.)", "quantifier": "every payload length, both overflow modes", "why_tests_cant": "Needs every payload length including ones nobody tests.", "anchors": ["src/packets/emi.rs:LDataReqMessage::packet"]}
{"id": "C11", "title": "A written value is what a receiver decodes", "statement": "Taking the telegram produced for a group write of value v to address a and decoding it with CEMI::from_packet and LDataInd::from_cemi yields destination a and value v (large write, 1..253 bytes) or the low six bits of the first byte (small write).", "quantifier": "every address, every value of 1..253 bytes, every small value", "why_tests_cant": "All addresses and values.", "anchors": ["src/packets/emi.rs:LDataReqMessage::packet", "src/packets/emi.rs:CEMI::from_packet", "src/packets/emi.rs:LDataInd::from_cemi"]}
{"id": "C12", "title": "cEMI frames with additional information are parsed exactly", "statement": "For every message code, list of additional-information blocks of known types whose declared total fits in one byte, and service data, parsing the standard encoding of the frame returns that code, those blocks in order, and that service data. Conversely a byte string is accepted exactly if it is a message code, a total, and blocks of known types, read as long as their sizes so far (modulo 256; below 256 in a debug build) are less than the total; the last block may exceed the total, and bytes missing from a last block that ends the frame count as zeros; what follows is the service data.", "quantifier": "every well-formed cEMI frame", "why_tests_cant": "Lists of any length and content.", "anchors": ["src/packets/emi.rs:CEMI::from_packet", "src/packets/emi.rs:CEMIAdditionalInfoType::try_from"]}
{"id": "C13", "title": "cEMI parsing terminates and does not panic", "statement": "CEMI::from_packet terminates on every byte string; it never panics in release builds; in debug builds it panics exactly when the running byte counter of additional information exceeds 255.", "quantifier": "every byte string, both overflow modes", "why_tests_cant": "Adversarial bytes of any length; termination is not observable by tests.", "anchors": ["src/packets/emi.rs:CEMI::from_packet"]}
{"id": "C14", "title": "L_Data.ind decoding is total and never invents bytes", "statement": "LDataInd::from_cemi never panics; it succeeds iff the service data has at least 9 bytes; the value has max(1, L-1) bytes where L is the length octet; if the frame really carries L-1 payload bytes the value is exactly these bytes, otherwise the missing tail is zero.", "quantifier": "every service data byte string", "why_tests_cant": "All byte strings.", "anchors": ["src/packets/emi.rs:LDataInd::from_cemi"]}
{"id": "C15", "title": "Confirmation decoding", "statement": "LDataCon::from_cemi succeeds iff the service data has at least 6 bytes and then reports source, destination, the control flags at their bit positions and confirm = (bit 0 of control 1 is 0).", "quantifier": "every service data byte string", "why_tests_cant": "All byte strings.", "anchors": ["src/packets/emi.rs:LDataCon::from_cemi"]}
{"id": "C16", "title": "KNXnet/IP header and HPAI round trip", "statement": "KnxNetIpHeader and HPAI: from_packet(packet(x) ++ rest) returns x and leaves exactly rest, for every value and every continuation.", "quantifier": "every header / HPAI value and every following byte string", "why_tests_cant": "2^32 headers, 2^56 HPAIs, any continuation.", "anchors": ["src/packets/core.rs:HPAI", "src/packets/core.rs:KnxNetIpHeader"]}
{"id": "C17", "title": "Connection-state and disconnect messages round trip", "statement": "ConnectionstateRequest, ConnectionstateResponse and DisconnectResponse decode from their own encoding (with any trailing bytes) to the same value.", "quantifier": "every message value and every trailing byte string", "why_tests_cant": "All values.", "anchors": ["src/packets/core.rs:ConnectionstateRequest", "src/packets/core.rs:ConnectionstateResponse", "src/packets/core.rs:DisconnectResponse"]}
{"id": "C18", "title": "Tunneling request and ack round trip", "statement": "TunnelingAck and TunnelingRequest decode from their own encoding to the same value, for every channel, sequence number and cEMI of at most 65525 bytes.", "quantifier": "every message value (cEMI length up to the 16-bit limit)", "why_tests_cant": "All values and lengths.", "anchors": ["src/packets/tunneling.rs:TunnelingRequest", "src/packets/tunneling.rs:TunnelingAck"]}
{"id": "C19", "title": "Every frame the client sends is a well-formed KNXnet/IP frame", "statement": "Every request/ack/response frame the library sends starts with 06 10, the service code assigned to that message, and a length field equal to the number of bytes of the frame. A state request or disconnect request made from a received connection response carries the channel (byte 6) and the endpoint (bytes 8 to 15) of the bytes received. Endpoints are coded 1 for UDP and 2 for TCP, tunnelling layers 02, 04 and 80 hex for link layer, raw and busmonitor.", "quantifier": "every message value (tunneling cEMI up to 65525 bytes)", "why_tests_cant": "All values.", "anchors": ["src/packets/core.rs:packet", "src/packets/tunneling.rs:packet", "src/packets/core.rs:ConnectionstateRequest::from_connection_response", "src/packets/core.rs:HPAI::tcp", "src/packets/core.rs:CRI::tunnel_raw"]}
{"id": "C20", "title": "Decoding a received frame never panics", "statement": "parse_response returns normally (Ok or Err) for every byte string. (Refuted: exactly the tunneling requests declaring a total length below 10 panic.)", "quantifier": "every byte string, both overflow modes", "why_tests_cant": "Adversarial bytes from the network.", "anchors": ["src/transport/udp.rs:parse_response", "src/packets/tunneling.rs:TunnelingRequest::from_packet"]}
{"id": "C21", "title": "Frame dispatch follows the service code", "statement": "parse_response returns a message of a given kind only for frames whose bytes 2..4 are the service code of that kind, and whenever it returns Ok the fields are those at the specified offsets of the frame.", "quantifier": "every byte string", "why_tests_cant": "All byte strings.", "anchors": ["src/transport/udp.rs:parse_response"]}
{"id": "C22", "title": "A disconnect request from the gateway is recognised and answered", "statement": "A gateway's DISCONNECT_REQUEST frame is decoded to a disconnect request with its channel. (Refuted: no byte string whatsoever makes parse_response return a disconnect request.)", "quantifier": "every byte string", "why_tests_cant": "A statement about all byte strings.", "anchors": ["src/transport/udp.rs:parse_response", "src/packets/core.rs:DisconnectRequest::from_packet"]}
{"id": "C23", "title": "Connection response decoding", "statement": "ConnectionResponse::from_packet accepts the standard encoding of every response with a status other than the four named error codes, returns its channel, status and data endpoint, rejects the four error codes, and never panics.", "quantifier": "every response value; every byte string", "why_tests_cant": "All values.", "anchors": ["src/packets/core.rs:ConnectionResponse::from_packet", "src/packets/core.rs:CRD::from_packet"]}
{"id": "C24", "title": "Responses the library encodes can be decoded by the library", "statement": "ConnectionResponse, FeatureResp, DisconnectRequest and SearchResponse decode from their own encoding. (Refuted for all four: decoding never gives back the value.)", "quantifier": "every message value", "why_tests_cant": "Negative statement over all values.", "anchors": ["src/packets/core.rs:ConnectionResponse::packet", "src/packets/tunneling.rs:FeatureResp::packet", "src/packets/core.rs:DisconnectRequest::packet", "src/packets/core.rs:SearchResponse::packet"]}
{"id": "C25", "title": "Feature response decoding", "statement": "FeatureResp::from_packet returns the fields of every standard feature response for a known feature, rejects unknown features and never panics.", "quantifier": "every byte string; every feature response", "why_tests_cant": "All byte strings.", "anchors": ["src/packets/tunneling.rs:FeatureResp::from_packet", "src/packets/tunneling.rs:KnxIpFeature::try_from"]}
{"id": "C26", "title": "Search request round trip", "statement": "SearchRequest decodes from its own encoding to the same endpoint; the multicast form always names 224.0.23.12:3671.", "quantifier": "every endpoint", "why_tests_cant": "2^48 endpoints.", "anchors": ["src/packets/core.rs:SearchRequest"]}
{"id": "C27", "title": "Search response decoding", "statement": "SearchResponse::from_packet returns exactly the endpoint, device information and service families of every standard SEARCH_RESPONSE frame (up to 126 families).", "quantifier": "every standard search response frame", "why_tests_cant": "All values and list lengths.", "anchors": ["src/packets/core.rs:SearchResponse::from_packet", "src/packets/core.rs:DIB::from_packet"]}
{"id": "C28", "title": "Description blocks round trip", "statement": "Encoding a description block and decoding it returns the block, for device information, service families, IP config, IP current config. (Refuted for KNX addresses and manufacturer data.)", "quantifier": "every description block whose structure length field is consistent", "why_tests_cant": "All values and list lengths.", "anchors": ["src/packets/core.rs:DIB::packet", "src/packets/core.rs:DIB::from_packet"]}
{"id": "C29", "title": "Description block decoding never panics", "statement": "DIB::from_packet and SearchResponse::from_packet never panic. (Refuted in debug builds: exactly the blocks declaring an impossible structure length.)", "quantifier": "every byte string, both overflow modes", "why_tests_cant": "Adversarial bytes.", "anchors": ["src/packets/core.rs:SupportedServiceFamiliesDIB::from_packet", "src/packets/core.rs:KNXAddressesDIB::from_packet"]}
{"id": "C30", "title": "Description blocks have even length", "statement": "The encoding of every description block has an even number of bytes, and the first byte is the unpadded length modulo 256.", "quantifier": "every description block", "why_tests_cant": "All list lengths.", "anchors": ["src/packets/core.rs:DIB::packet"]}
{"id": "C31", "title": "Friendly name encoding", "statement": "DeviceInformationDIB::new accepts exactly the names of 30 ISO-8859-1 characters and friendly_name() returns the name that was passed; friendly_name() never fails.", "quantifier": "every string", "why_tests_cant": "All strings.", "anchors": ["src/packets/core.rs:DeviceInformationDIB::new", "src/packets/core.rs:DeviceInformationDIB::friendly_name"]}
{"id": "C32", "title": "Integer data point types round trip", "statement": "For the bit, byte, scaled, word, ulong, int types: from_bytes(get_bytes(general(v))) has value v for every v, get_bytes has the fixed size of the type in big endian, and from_bytes fails exactly when too few bytes are given.", "quantifier": "every value of each type; every byte string", "why_tests_cant": "2^32 values.", "anchors": ["src/dp_types.rs:Pdt"]}
{"id": "C33", "title": "Dimming/blind control encoding", "statement": "B1U3 values encode to a single byte (direction*8 + step mod 8) below 16 that decodes to the same direction and step.", "quantifier": "every direction and step byte; every byte", "why_tests_cant": "All combinations.", "anchors": ["src/dp_types.rs:PdtKnxB1U3"]}
{"id": "C34", "title": "Percent (DPT 8.010) constructor", "statement": "percent_v16(v) represents v percent as v*100 hundredths for every i16 v. (Refuted for |v| > 327: panics in debug, wraps in release.)", "quantifier": "every i16, both overflow modes", "why_tests_cant": "2^16 values x 2 modes.", "anchors": ["src/dp_types.rs:PdtKnxInt::percent_v16"]}
{"id": "C35", "title": "2-byte float decoding is the KNX DPT 9 value", "statement": "Decoding two bytes gives 0.01*M*2^E (M 12-bit two's complement, E 0..15), up to single-precision rounding. (Refuted for E >= 8 and for mantissa -2048; exact characterisation.)", "quantifier": "all 65536 byte pairs, both overflow modes", "why_tests_cant": "A test samples four values.", "anchors": ["src/dp_types.rs:bytes_to_float"]}
{"id": "C36", "title": "2-byte float encoding is accurate", "statement": "For every f32 v in the DPT 9 range the encoded bytes denote a value within half a step of v. (Refuted at the boundaries: the result is proved for all v outside the exactly characterised exceptional set.)", "quantifier": "every finite f32", "why_tests_cant": "2^32 values.", "anchors": ["src/dp_types.rs:calimero_float_to_bytes"]}
{"id": "C37", "title": "2-byte float encoding terminates", "statement": "Encoding terminates with two bytes for every f32. (Refuted: when v*100 is or overflows to an infinity a release build loops forever and a debug build panics.)", "quantifier": "every f32 including infinities and NaN", "why_tests_cant": "Non-termination cannot be observed by a test.", "anchors": ["src/dp_types.rs:calimero_float_to_bytes"]}
{"id": "C38", "title": "Float encode/decode round trip", "statement": "Encoding the value decoded from any canonical DPT 9 byte pair with E <= 7 gives the same byte pair back.", "quantifier": "every canonical byte pair with exponent at most 7", "why_tests_cant": "The unit test samples four values.", "anchors": ["src/dp_types.rs:calimero_float_to_bytes", "src/dp_types.rs:bytes_to_float"]}
{"id": "C39", "title": "Scaling (DPT 5.001) round trip, monotonicity, saturation", "statement": "scaling is monotone in the percentage, saturates at 0 and 255, maps [0,100] within 1.5 steps of 255*p/100, and scaling(get_value) returns the raw byte for every raw byte except 0.", "quantifier": "every f32 percentage; every raw byte", "why_tests_cant": "2^32 inputs.", "anchors": ["src/dp_types.rs:PdtKnxScaledValue::scaling", "src/dp_types.rs:PdtKnxScaledValue::get_value"]}
{"id": "C40", "title": "A typed value written to a group arrives as the same typed value", "statement": "Writing a data point value with group_value_write_pd and decoding the resulting telegram and then from_bytes gives back the value, for the bit, B1U3, int, word, ulong and scaled types. (PdtKnxByte always panics.)", "quantifier": "every address and every value of each type", "why_tests_cant": "Composition over all values.", "anchors": ["src/packets/apdu.rs:APDU::group_value_write_pd", "src/dp_types.rs:Pdt"]}
{"id": "C41", "title": "Datagrams up to 100 bytes are handled exactly; longer ones are cut", "statement": "A tunneling request datagram of at most 100 bytes carries its cEMI to the application unchanged. (For longer ones exactly the bytes beyond 100 are replaced by zeros.)", "quantifier": "every datagram", "why_tests_cant": "All lengths and contents.", "anchors": ["src/transport/udp.rs:handle_recv_from_knx_device", "src/packets/tunneling.rs:TunnelingRequest::from_packet"]}
{"id": "C42", "title": "Exactly one acknowledgement per accepted tunneling request, in order", "statement": "In every execution the tunneling acks sent are, in order, acks (same channel, same sequence number, status 0) of distinct received tunneling requests or feature responses; without send failures or cancellation none is missing.", "quantifier": "every interleaving of datagrams, heart beats, API calls, failures", "why_tests_cant": "All schedules.", "anchors": ["src/transport/udp.rs:handle_recv_from_knx_device"]}
{"id": "C43", "title": "Received telegrams reach the application in order, without duplication or invention", "statement": "In every execution the sequence of cEMI messages taken by the application, followed by those still queued, is exactly the sequence put in the queue, which is a subsequence of the cEMIs carried by the received tunneling requests, in order.", "quantifier": "every execution", "why_tests_cant": "All schedules.", "anchors": ["src/transport/udp.rs:handle_recv_from_knx_device", "src/transport/udp.rs:UdpTransport::connect"]}
{"id": "C44", "title": "An acknowledged telegram is never lost", "statement": "Every cEMI whose tunneling request was acknowledged is delivered to the queue. (Refuted: lost exactly when it does not parse, or when a heart beat or shutdown cancels the handler while the queue is full.)", "quantifier": "every execution", "why_tests_cant": "Needs a schedule where a timer fires while the queue is full.", "anchors": ["src/transport/udp.rs:handle_recv_from_knx_device", "src/transport/udp.rs:UdpTransport::connect"]}
{"id": "C45", "title": "The receive queue is bounded", "statement": "At most 100 telegrams are queued in every reachable state, and a full queue blocks rather than drops.", "quantifier": "every execution", "why_tests_cant": "All schedules.", "anchors": ["src/transport/udp.rs:UdpTransport::connect"]}
{"id": "C46", "title": "Sequence numbers count up from the initial value within a connection", "statement": "In every execution, the sequence numbers drawn since the last connection was established are n0, n0+1, n0+2, ... modulo 256 in order (n0 = 0 for the client, 1 for the monitor).", "quantifier": "every execution and any number of requests (wrap-around included)", "why_tests_cant": "Needs > 256 requests and reconnects in any interleaving.", "anchors": ["src/transport/udp.rs:UdpTransport::get_next_sequence_nr", "src/transport/udp_monitor.rs:UdpMonitorTransport::get_next_sequence_nr"]}
{"id": "C47", "title": "A request carries the sequence number of the channel it is sent on", "statement": "Every tunneling request on the wire pairs a channel id with a sequence number drawn from that same connection. (Refuted: a reconnect between the two lock acquisitions mixes them; proved when no reconnect falls between.)", "quantifier": "every execution", "why_tests_cant": "A race.", "anchors": ["src/transport/udp.rs:UdpTransport::tunnel_req"]}
{"id": "C48", "title": "Only an accepted connect response establishes a connection", "statement": "Whenever the client considers itself connected, the channel id and endpoint are those of a received datagram that decodes as a CONNECT_RESPONSE with status 0.", "quantifier": "every execution", "why_tests_cant": "All schedules and datagrams.", "anchors": ["src/transport/udp.rs:try_connection", "src/transport/udp.rs:ConnectionData::from_connection_response"]}
{"id": "C49", "title": "Malformed or unexpected datagrams never corrupt the session", "statement": "A datagram that does not decode (or a connection-state error) makes the client drop the connection and reconnect, and nothing else: no ack, no delivery, queue unchanged.", "quantifier": "every state and datagram", "why_tests_cant": "All states.", "anchors": ["src/transport/udp.rs:handle_recv_from_knx_device", "src/transport/udp.rs:UdpTransport::connect"]}
{"id": "C50", "title": "A remote frame cannot kill the receive task", "statement": "The background task keeps running whatever the gateway sends, except after a disconnect response. (Refuted: a tunneling request with declared length below 10 panics the task; proved to be the only way besides cEMI counter overflow in debug builds.)", "quantifier": "every execution", "why_tests_cant": "Adversarial datagrams.", "anchors": ["src/transport/udp.rs:handle_recv_from_knx_device"]}
{"id": "C51", "title": "Loss of the session is visible to the application", "statement": "After the background task has ended the client reports itself as disconnected. (Refuted: connection data stays set for ever, so is_connected stays true and requests keep being sent.)", "quantifier": "every execution", "why_tests_cant": "All continuations of every execution.", "anchors": ["src/transport/udp.rs:UdpTransport::connect", "src/transport/udp_monitor.rs:UdpMonitor::is_connected"]}
{"id": "C52", "title": "A silent gateway is detected", "statement": "If the gateway stops answering heart beats the client eventually drops the connection. (Refuted: any number of unanswered heart beats leaves the connection unchanged; each sends one request with the current channel.)", "quantifier": "every number of heart beats", "why_tests_cant": "Unbounded time.", "anchors": ["src/transport/udp.rs:UdpTransport::connect"]}
{"id": "C53", "title": "A group read returns only a value addressed to the requested group", "statement": "When read_group_address_value returns Ok(v), v is the value of an L_Data.ind whose destination is the requested address, taken from the queue during this call, and every message taken before it during the call was not such an indication.", "quantifier": "every execution", "why_tests_cant": "All schedules.", "anchors": ["src/transport/udp.rs:UdpClient::read_group_address_value"]}
{"id": "C54", "title": "A group read returns the answer to this read", "statement": "The value returned by a read was sent in response to it. (Refuted: stale queued values, other devices' writes and even other devices' read requests are returned.)", "quantifier": "every execution", "why_tests_cant": "Needs schedules with concurrent bus traffic.", "anchors": ["src/transport/udp.rs:UdpClient::read_group_address_value"]}
{"id": "C55", "title": "A group read completes within its timeout", "statement": "read_group_address_value returns within one timeout period of ten seconds, and does not give up earlier. (First part refuted: any number of unrelated telegrams keeps it waiting. Second part: unless the background task ends, at least ten seconds pass from sending the request, or from the last telegram it took, until it returns an error without a telegram.)", "quantifier": "every number of telegrams, every execution", "why_tests_cant": "Unbounded executions.", "anchors": ["src/transport/udp.rs:UdpClient::read_group_address_value"]}
{"id": "C56", "title": "A successful group write was confirmed", "statement": "write_group_address_value returns Ok iff the first message taken from the queue during the call is an L_Data.con. (Refuted as a delivery guarantee: a negative confirmation, or one for another address, also gives Ok, and an unrelated indication gives Err.)", "quantifier": "every execution", "why_tests_cant": "All schedules.", "anchors": ["src/transport/udp.rs:UdpClient::write_group_address_value"]}
{"id": "C57", "title": "Graceful disconnect reports success", "statement": "disconnect() returns Ok when the gateway confirms. (Refuted: with an empty queue a confirmed disconnect always returns Err; Ok is returned iff some cEMI telegram is taken.)", "quantifier": "every execution", "why_tests_cant": "All schedules.", "anchors": ["src/transport/udp.rs:UdpTransport::disconnect"]}
{"id": "C58", "title": "Connection status query returns the gateway's status", "statement": "get_connection_status returns Ok(s) only if a datagram decoding as a connection-state response s was received by this call; a datagram it takes is not seen by the background task (so it may swallow a telegram).", "quantifier": "every execution", "why_tests_cant": "Two readers race on one socket.", "anchors": ["src/transport/udp.rs:UdpTransport::get_connectionstate"]}
{"id": "C59", "title": "API calls while disconnected fail without sending", "statement": "While there is no connection, read, write, disconnect and status calls return Err and put nothing on the wire.", "quantifier": "every execution state without connection", "why_tests_cant": "All states.", "anchors": ["src/transport/udp.rs:UdpTransport::get_next_sequence_nr", "src/transport/udp.rs:UdpTransport::get_communication_channel_id"]}
{"id": "C60", "title": "Discovery returns one entry per valid response", "statement": "search returns the decoded responses in arrival order. (Exact behaviour: any datagram that does not decode discards everything; bytes of an earlier longer datagram leak into a later shorter one.)", "quantifier": "every sequence of datagrams", "why_tests_cant": "All sequences.", "anchors": ["src/transport/udp.rs:UdpTransport::search"]}
{"id": "C61", "title": "Monitor delivers indications in order and skips everything else", "statement": "next_msg returns the decoded indication (or error) of the first queued L_Data.ind or L_Busmon.ind, and consumes exactly the messages up to it; confirmations and unknown codes are skipped.", "quantifier": "every queue content", "why_tests_cant": "Lists of any length.", "anchors": ["src/transport/udp_monitor.rs:UdpMonitor::next_msg"]}
{"id": "C62", "title": "Monitor announces every connection to every live subscriber", "statement": "Each time a connection is established, each registered subscriber whose receiver is open gets exactly one notification and stays registered, closed ones are removed; a subscriber with a full channel blocks the monitor.", "quantifier": "every execution and number of subscribers", "why_tests_cant": "All schedules.", "anchors": ["src/transport/udp_monitor.rs:UdpMonitorTransport::connect", "src/transport/udp_monitor.rs:add_on_connect"]}
{"id": "C63", "title": "Bus monitoring is enabled before the connection is announced", "statement": "In every execution of the monitor every established connection was preceded by sending the enable-info-service feature request with sequence number 0 on the same channel, and later requests start from sequence number 1.", "quantifier": "every execution", "why_tests_cant": "All schedules.", "anchors": ["src/transport/udp_monitor.rs:enable_busmonitor", "src/transport/udp_monitor.rs:ConnectionData::from_connection_response"]}
{"id": "C64", "title": "A repeated tunneling request is delivered only once", "statement": "KNXnet/IP tunneling: a gateway that misses an acknowledgement repeats the tunneling request with the same sequence counter; the receiver acknowledges the copy and discards it. (Behaviour: one delivery per copy, whatever the counter.)", "quantifier": "every execution, every number of copies", "why_tests_cant": "The gateway's repetitions and their number are unbounded; no gateway in the tests.", "anchors": ["src/transport/udp.rs:handle_recv_from_knx_device", "src/transport/udp.rs:UdpTransport::connect"]}
{"id": "C65", "title": "Frames of another channel are ignored", "statement": "A tunneling request or disconnect request whose channel id is not that of the connection has no effect on the connection and is not delivered.", "quantifier": "every execution, every channel pair", "why_tests_cant": "All 65536 pairs and all interleavings.", "anchors": ["src/transport/udp.rs:handle_recv_from_knx_device", "src/transport/udp.rs:UdpTransport::connect"]}
{"id": "C66", "title": "The acknowledgement of a request is checked, and an unacknowledged request is repeated once", "statement": "KNXnet/IP tunneling: the client waits one second for the acknowledgement of its tunneling request, repeats it once, then gives up the connection; an acknowledgement with an error status is a failure. (Behaviour: at most one tunneling request per call, acknowledgements never looked at.)", "quantifier": "every execution", "why_tests_cant": "All schedules and all acknowledgement contents.", "anchors": ["src/transport/udp.rs:handle_recv_from_knx_device", "src/transport/udp.rs:UdpTransport::tunnel_req", "src/transport/udp.rs:UdpClient::write_group_address_value"]}
{"id": "C67", "title": "Dropping the client ends the session", "statement": "After the client object has been dropped the background task says good bye to the gateway and stops. (Behaviour: nothing of the sort: heart beats continue for ever; a telegram makes the task reconnect.)", "quantifier": "every execution, every length of the run after the drop", "why_tests_cant": "Unbounded runs after the drop.", "anchors": ["src/transport/udp.rs:UdpTransport::connect", "src/transport/udp.rs:UdpClient::connect"]}
{"id": "C68", "title": "Heart beats come once a minute, neither more nor less", "statement": "In every execution of client or monitor n heart beats take at least n-1 minutes (between any two moments: less five milliseconds of timer slack); when timers fire on time, a minute after a heart beat either the next one has become due or something was observed that ends the connection or the task; a due heart beat can be sent at any time while the task waits for a datagram or deals with one, even when it is stuck on a full message channel.", "quantifier": "every execution, every pair of moments in it, every interleaving", "why_tests_cant": "Unbounded runs with arbitrary scheduling delays.", "anchors": ["src/transport/udp.rs:UdpTransport::connect", "src/transport/udp_monitor.rs:UdpMonitorTransport::connect"]}
{"id": "C69", "title": "Reconnection attempts are paced", "statement": "Attempts to connect are at least ten seconds and, with timers on time, at most forty seconds apart. (Partial: the lower bound holds only while no connection is established; a gateway that grants a connection and reports an error at once makes the task ask again without any pause, any number of times in zero time. On the monitor a failed feature request has the same effect.)", "quantifier": "every execution; every number of attempts", "why_tests_cant": "Unbounded retry sequences and arbitrary gateway behaviour.", "anchors": ["src/transport/udp.rs:connect", "src/transport/udp.rs:try_connection", "src/transport/udp.rs:UdpTransport::connect", "src/transport/udp_monitor.rs:UdpMonitorTransport::connect"]}
{"id": "C70", "title": "Nothing unexpected is ever sent", "statement": "Every datagram sent is one of: by the task, the connect request while not connected, the acknowledgement (same channel and sequence number) of the request or feature response received last, the heart beat of the current connection, on the monitor the feature request on the channel just granted; by a call, as its first and only datagram, the tunneling request with the telegram of the call and the number just drawn, the status query or the disconnect request.", "quantifier": "every step of every execution of client and monitor", "why_tests_cant": "All interleavings and datagram contents.", "anchors": ["src/transport/udp.rs:UdpTransport::connect", "src/transport/udp.rs:handle_recv_from_knx_device", "src/transport/udp.rs:UdpTransport::tunnel_req", "src/transport/udp.rs:UdpTransport::get_connectionstate", "src/transport/udp.rs:UdpTransport::disconnect", "src/transport/udp_monitor.rs:UdpMonitorTransport::tunnel_req", "src/transport/udp_monitor.rs:enable_busmonitor"]}
{"id": "C71", "title": "A group write is over ten seconds after sending, not earlier", "statement": "When timers fire on time, a write that has sent its request and has neither returned nor been cancelled is at most ten seconds old, and at ten seconds it can return the timeout error, whatever else happens. Conversely, unless a telegram arrives for it or the background task ends, at least ten seconds pass before it returns an error.", "quantifier": "every execution (first part: with timers on time)", "why_tests_cant": "All schedules of task, gateway and call.", "anchors": ["src/transport/udp.rs:UdpClient::write_group_address_value"]}
{"id": "C72", "title": "Every call ends within a bounded time", "statement": "get_connection_status and disconnect return within a bounded time. (Refuted: neither has a timeout. A status call ends only with a received datagram, a receive error or cancellation; for every n there is an execution in which status, client disconnect, or monitor disconnect is still pending after n minutes of undisturbed heart beats. And since every call holds the transport lock, nothing else can be called meanwhile.)", "quantifier": "every execution; every number of minutes", "why_tests_cant": "No test waits for ever.", "anchors": ["src/transport/udp.rs:UdpTransport::get_connectionstate", "src/transport/udp.rs:UdpTransport::disconnect", "src/transport/udp_monitor.rs:UdpMonitorTransport::disconnect"]}
{"id": "C73", "title": "The session can always be recovered", "statement": "From every state reachable without the task having ended or panicked, the task on its own can still reach a newly established connection for every connection a gateway may grant (on the monitor: if subscribers that do not read drop their receivers).", "quantifier": "every reachable state, every granting response", "why_tests_cant": "Quantifies over all reachable states, including full queues and half finished handshakes.", "anchors": ["src/transport/udp.rs:UdpTransport::connect", "src/transport/udp.rs:connect", "src/transport/udp_monitor.rs:UdpMonitorTransport::connect"]}
{"id": "C74", "title": "The results of the monitor's calls are truthful", "statement": "A write or solicit of the monitor returns Ok exactly when its one tunnelling request, carrying its telegram, has been sent; after an error or panic nothing has been sent. disconnect returns a status exactly from a received disconnect response, after sending the request; is_connected tells whether a connection is established at that moment; add_on_connect registers the subscriber.", "quantifier": "every execution of the monitor, every call", "why_tests_cant": "Quantifies over all interleavings of calls with the background task and over all received datagrams.", "anchors": ["src/transport/udp_monitor.rs:UdpMonitorTransport::tunnel_req", "src/transport/udp_monitor.rs:UdpMonitorTransport::disconnect", "src/transport/udp_monitor.rs:UdpMonitorTransport::is_connected", "src/transport/udp_monitor.rs:UdpMonitorTransport::add_on_connect"]}
{"id": "C75", "title": "Calls are answered one at a time and each at most once", "statement": "In every execution calls and their ends (a result, or cancellation by the caller) alternate: every result belongs to the single call in progress, no call gets two, none starts before the one before is over; while none is in progress every call can start, and a call in progress can be cancelled at any time. For next_msg of the monitor the same holds for every caller separately.", "quantifier": "every execution of client and monitor, every caller", "why_tests_cant": "All interleavings and cancellation points.", "anchors": ["src/transport/udp.rs:UdpClient", "src/transport/udp_monitor.rs:UdpMonitor"]}
{"id": "C76", "title": "Exactly when API calls panic", "statement": "Calls panic exactly in these situations: a write of an empty small value; in a debug build a write of a value whose length is 254 modulo 256, or whose telegram does not fit into a frame (when it is about to be sent); a disconnect whose request cannot be sent; on the monitor also a disconnect that fails to receive. Reads, solicits, status queries, is_connected and next_msg never panic, whatever is received.", "quantifier": "every execution, every call, every received datagram", "why_tests_cant": "Needs all inputs and all execution states.", "anchors": ["src/transport/udp.rs:UdpClient", "src/transport/udp_monitor.rs:UdpMonitor", "src/packets/apdu.rs:APDU::group_value_write"]}
{"id": "C77", "title": "Concurrent callers are served one at a time, in the order of their calls", "statement": "When any number of tasks share a client or a monitor and call it concurrently, calls are served one after the other in the order in which they were made (those that give up while waiting drop out of the line); nothing is sent, received or returned on behalf of a call out of its turn; whatever a call does or returns belongs to its own request, in particular a read returns the value of a telegram for the address this caller asked for; once nobody is being served the first in the line can go on; and apart from the waiting the object behaves as if it had a single caller.", "quantifier": "any number of callers, every interleaving of calls, cancellations, datagrams and timers, client and monitor", "why_tests_cant": "Interleavings of arbitrarily many tasks.", "anchors": ["src/transport/udp.rs:UdpClient", "src/transport/udp_monitor.rs:UdpMonitor", "src/main.rs:main"]}
{"id": "C78", "title": "No caller waits for ever because of another one's call", "statement": "A call waits for its turn only as long as the calls made before it take, and these come to an end.", "quantifier": "any callers and calls, runs of any length with timers on time", "why_tests_cant": "Unbounded waiting cannot be observed by a test.", "anchors": ["src/transport/udp.rs:UdpClient::get_connection_status", "src/transport/udp_monitor.rs:UdpMonitor::disconnect", "src/transport/udp.rs:UdpClient"]}
{"id": "C79", "title": "A decoded data point carries the type label of its type", "statement": "A data point obtained from bytes has the same type code (and unit) as one made by the general constructor of its type, and the named constructors carry the sub-type code of the standard.", "quantifier": "all byte strings and values of the eight data point types", "why_tests_cant": "A test compares the label of one value; here it is shown for all byte strings of all types, and the two types for which it is false (ULong says 8.x, B1U3 says 0.x) are shown wrong for every input.", "anchors": ["src/dp_types.rs:PdtKnxULong::from_bytes", "src/dp_types.rs:PdtKnxB1U3::from_bytes", "src/dp_types.rs:PdtKnxScaledValue::from_bytes"]}
{"id": "C80", "title": "Data of the wrong size or range is rejected", "statement": "from_bytes accepts exactly the byte strings that the data point type allows: the right number of bytes, and no reserved bits set.", "quantifier": "all byte strings", "why_tests_cant": "Over-long or out-of-range inputs are an unbounded family; tests only try the right sizes.", "anchors": ["src/dp_types.rs:Pdt::from_bytes", "src/dp_types.rs:bytes_to_float"]}
{"id": "C81", "title": "Percentages are encoded and decoded as DPT 5.001 prescribes", "statement": "scaling(p) encodes the percentage p as the byte nearest to 255 p / 100, and get_value of byte b is 100 b / 255, as the KNX standard prescribes for DPT 5.001.", "quantifier": "all percentages (single precision) and all bytes", "why_tests_cant": "The deviation depends on the value; a test on 0 or 100 percent would not notice the wrong slope.", "anchors": ["src/dp_types.rs:PdtKnxScaledValue::scaling", "src/dp_types.rs:PdtKnxScaledValue::get_value"]}
{"id": "C82", "title": "Only a group telegram answers a group read", "statement": "A group read returns only a value that was sent in a group value response or write to that group; a telegram addressed to a device, or of another service, is never taken for an answer.", "quantifier": "all executions; all control bytes, transport and application control fields", "why_tests_cant": "The result depends on bits nobody sets in a test; all values of these bits are covered at once.", "anchors": ["src/transport/udp.rs:UdpClient::read_group_address_value", "src/packets/emi.rs:LDataInd::from_cemi"]}
{"id": "C83", "title": "What one client writes is what another client reads", "statement": "If a client or monitor writes a value to a group and the interface forwards the telegram, then another client waiting for that group returns exactly the value written, and a monitor shows it with the sender's address.", "quantifier": "all executions of both programs, all values, addresses and build modes; the interface as specified by the standard", "why_tests_cant": "End-to-end composition of encoder, sender, receiver and decoder of two processes; no test has two clients.", "anchors": ["src/transport/udp.rs:UdpClient::write_group_address_value", "src/transport/udp.rs:UdpClient::read_group_address_value", "src/transport/udp_monitor.rs:UdpMonitor::next_msg"]}
{"id": "C84", "title": "The answer to a question reaches the call that asked", "statement": "The gateway's answer to a status query, or to the monitor's disconnect request, is returned by the call that sent the request.", "quantifier": "all executions, all interleavings of the call and the background task", "why_tests_cant": "It is a race between two readers of one socket; a test sees one outcome.", "anchors": ["src/transport/udp.rs:UdpTransport::get_connectionstate", "src/transport/udp_monitor.rs:UdpMonitorTransport::disconnect"]}
{"id": "C85", "title": "The discovery program reports every gateway that answers, completely", "statement": "examples/discover.rs prints, for every gateway that answers within the time, one block with its endpoint, name, medium, address, programming mode, project, serial number, multicast address, MAC address and service families, in the order of arrival and in the format its documentation shows; blocks of different gateways differ.", "quantifier": "all sequences of datagrams and times, all device descriptions", "why_tests_cant": "The output depends on up to fifteen fields of an unbounded number of gateways; no test runs the example, and that no two descriptions give the same text is a statement about all pairs.", "anchors": ["examples/discover.rs:main", "src/transport/udp.rs:UdpClient::search", "src/packets/core.rs:friendly_name"]}
{"id": "C86", "title": "A call sends its own request or nothing, and calling code sends nothing else", "statement": "During each call of a client or monitor at most one datagram is sent by the calling code, and it is the request this call is about (group read, group write, connection state request, disconnect request, with the arguments of the call); outside of calls it sends nothing.", "quantifier": "all executions of client and monitor with any sequence of calls, values of any length, results, failures and cancellations", "why_tests_cant": "Every call would have to be tested in every state of the connection and with every earlier history.", "anchors": ["src/transport/udp.rs:UdpClient::read_group_address_value", "src/transport/udp.rs:UdpClient::write_group_address_value", "src/transport/udp.rs:UdpClient::get_connection_status", "src/transport/udp.rs:UdpClient::disconnect", "src/transport/udp_monitor.rs:UdpMonitor::solecitate_group_read", "src/transport/udp_monitor.rs:UdpMonitor::write_group_address_value", "src/transport/udp_monitor.rs:UdpMonitor::disconnect"]}
{"id": "C87", "title": "A program that uses the client runs to its end; the sample program dims 1/1/2 down and disconnects", "statement": "A sequential program makes its calls in order, each after the sleeps before it, and ends with the error of the first call whose error it passes on, if any. The sample program sends one write of 3 to 1/1/2 four seconds after its start, then one disconnect request; it ends without an error if the gateway confirms both, and it ends in any case.", "quantifier": "all programs of sleeps and calls; all executions of the program and its client, all gateways", "why_tests_cant": "The program runs against any gateway, with any timing; a test can show one run only and cannot show that a program never ends.", "anchors": ["src/main.rs:main", "src/transport/udp.rs:UdpClient::disconnect", "src/transport/udp.rs:UdpClient::write_group_address_value"]}
{"id": "C88", "title": "A server that follows the standard forwards every request", "statement": "A KNXnet/IP server forwards a request only if its sequence counter is the expected one; it must therefore forward every tunneling request the client or the monitor sends on a connection, and still do so after one of them was lost or could not be sent. (Refuted: a request that is lost is never repeated, and one whose future is dropped or whose sending fails after its number was drawn leaves a gap; the server then discards the following 254 requests, takes the 255th for a repetition and acknowledges it without forwarding it, although the connection stays up, every heart beat is answered, and nothing tells the caller but time-outs. Proved: without loss and without disturbed calls every request is forwarded; in general exactly the requests before the first gap.)", "quantifier": "every execution of client and monitor, any number of requests (wrap-around included), every lost request", "why_tests_cant": "Needs a strict server, a lossy network and more than 256 requests.", "anchors": ["src/transport/udp.rs:UdpTransport::tunnel_req", "src/transport/udp.rs:UdpTransport::get_next_sequence_nr", "src/transport/udp_monitor.rs:UdpMonitorTransport::tunnel_req"]}
{"id": "C89", "title": "No situation is final: a client can always be used again", "statement": "Whatever has happened so far, as long as the object exists: if from now on the network and the server do their part, the client gets a connection again and calls succeed, without a new client being made. (Refuted: a disconnect response or a disconnect request of the server, at any time, ends the background task, and some datagrams make it panic; from then on no read, write or disconnect succeeds, except with telegrams that were queued before, and no new connection is ever made. Proved otherwise: from every other situation, within a minute and after at most 100 writes that use up what is queued, a write returns Ok and a read returns the value of the answer; on a monitor, whose subscribers must take what is in their channels, next_msg returns the next telegram and a write returns Ok.)", "quantifier": "every reachable state of client and monitor, both build modes, every granting connect response, every address, every value", "why_tests_cant": "A continuation must be found for every reachable state, including pending sends, a full queue, full subscriber channels and time-outs that are overdue.", "anchors": ["src/transport/udp.rs:UdpTransport::connect", "src/transport/udp.rs:handle_recv_from_knx_device", "src/transport/udp_monitor.rs:UdpMonitorTransport::connect", "src/transport/udp.rs:UdpClient::read_group_address_value"]}
{"id": "C90", "title": "A status query and a disconnect request are about one connection, the current one", "statement": "The connection state request of a status query and the disconnect request of a disconnect carry the channel and the endpoint of the connection that is up when they are sent. (Refuted: channel and endpoint are looked up in two steps, and the connection may be replaced before, between and after them; then the request carries the channel of the old and the endpoint of the new connection, whatever the two are. Proved: both are those of connections that were up during the call, the endpoint not before the channel; if no connection is established during the call, both are those of the connection established last.)", "quantifier": "all executions of client and monitor, both build modes, every pair of connections a server may grant", "why_tests_cant": "The defect needs a connection loss between two awaits of one call; and that no request is ever about a connection from before the call is a statement about all histories.", "anchors": ["src/transport/udp.rs:UdpTransport::get_connectionstate", "src/transport/udp.rs:UdpTransport::disconnect", "src/transport/udp.rs:UdpTransport::get_communication_channel_id", "src/transport/udp.rs:UdpTransport::get_control_endpoint", "src/transport/udp_monitor.rs:UdpMonitorTransport::disconnect"]}
{"id": "C91", "title": "A fault ends a connection at once, and nothing else does", "statement": "On an established connection, when a receive or a send of the background task fails, the message channel is closed, a datagram does not decode, or the server reports a connection state other than no error, the next thing the task does is to give the connection up (unless the datagram is one that makes it panic, C20), and it can do so immediately; and a connection is given up only right after such a fault.", "quantifier": "all executions of client and monitor, both build modes, every position in the sequence of what the task does", "why_tests_cant": "That a failure is never overlooked and that nothing else ends a connection concerns every position of every history, with calls, heart beats and time-outs in between.", "anchors": ["src/transport/udp.rs:UdpTransport::connect", "src/transport/udp.rs:handle_recv_from_knx_device", "src/transport/udp_monitor.rs:UdpMonitorTransport::connect"]}
{"id": "C92", "title": "Requests name an endpoint where the client can be reached", "statement": "Connect, connection state and disconnect requests carry the endpoint of the client to which the server is to send its answer (0.0.0.0:0 meaning: to where the request came from); this endpoint is the client's, so that a server that follows the standard can answer heart beats, status queries and disconnects. (Refuted: except in connect requests it is the data endpoint the server itself sent in its connect response. Answers arrive if and only if that is the client's own address or 0.0.0.0:0; with a server that names its own address and answers where it is asked to, no heart beat is ever answered, no status query ever returns a status, no disconnect of a monitor ever returns a code and no disconnect ends the task.)", "quantifier": "all executions of client and monitor, both build modes, all addresses of the client and all endpoints a server may grant", "why_tests_cant": "It holds for every history and every address; a test server that answers to the sender of a request cannot show it.", "anchors": ["src/transport/udp.rs:ConnectionData::from_connection_response", "src/transport/udp_monitor.rs:ConnectionData::from_connection_response", "src/transport/udp.rs:UdpTransport::get_connectionstate", "src/transport/udp.rs:UdpTransport::disconnect", "src/packets/core.rs:ConnectionRequest::tunnel"]}
{"id": "C93", "title": "A search can be answered, and reports that it could not be made", "statement": "A gateway search sends one search request to the system multicast address and port, naming an endpoint at which its socket can be reached (or 0.0.0.0:0), so that gateways that follow the standard can answer; if no socket can be had the search returns an error and sends nothing. (Refuted in the first part: the socket is bound to 0.0.0.0:0, and the endpoint named is the address 0.0.0.0 with the port of the socket, which is neither an address of the host nor the request to answer to where the datagram came from. With gateways that send their answers to the endpoint named, no answer ever arrives, the search returns the empty list and the discovery program prints nothing.)", "quantifier": "all results of creating the socket, all addresses of the host, all ports, all events during the search, both build modes", "why_tests_cant": "That no answer can arrive holds for all networks of gateways; gateways that ignore the endpoint named make the defect invisible in tests.", "anchors": ["src/transport/udp.rs:UdpTransport::search", "src/transport/udp.rs:UdpClient::search", "src/packets/core.rs:SearchRequest::udp_unicast", "examples/discover.rs:main"]}
{"id": "C94", "title": "A connection that is given up is released at the server", "statement": "A connection the client or monitor no longer uses is released at the server with a disconnect request, so that the limited number of connections a server has is not used up by ones nobody uses. (Refuted: the background task never sends a disconnect request. Besides the one in use the server keeps at least as many connections as were given up, less the calls of disconnect and the disconnect requests of the server; any number of connections can be given up and left open in no time at all, long before they expire at the server.)", "quantifier": "all executions of client and monitor, all sequences of granted connections of any length, both build modes", "why_tests_cant": "A bound on what is left over in every history; tests look at one connection.", "anchors": ["src/transport/udp.rs:UdpTransport::connect", "src/transport/udp_monitor.rs:UdpMonitorTransport::connect", "src/transport/udp.rs:connect"]}
{"id": "C95", "title": "A subscriber that does not read harms only itself", "statement": "A subscriber to connection events that is slow to read its channel, or never reads it, misses notifications but does not keep the monitor from its work. (Refuted: once its channel is full and a further connection is established, the monitor is at a standstill until that subscriber reads or drops its channel: no heart beats, no acknowledgements, nothing received, and no call gets anything sent or returns, is_connected included; only telegrams queued before are still handed out by next_msg.)", "quantifier": "every capacity of the channel, every sequence of that many connections and one more, all continuations of any length in which the subscriber does not read, both build modes", "why_tests_cant": "The standstill lasts in all continuations; a test sees a finite part of some of them.", "anchors": ["src/transport/udp_monitor.rs:UdpMonitorTransport::connect", "src/transport/udp_monitor.rs:UdpMonitorTransport::add_on_connect", "src/transport/udp_monitor.rs:UdpMonitor::add_on_connect", "src/transport/udp_monitor.rs:UdpMonitor::is_connected"]}
{"id": "C96", "title": "A connection is the one granted to the last request, and it lasts", "statement": "With a server that answers every connect request once, in order, and grants every connection, a connection in use is the one granted in answer to the last connect request sent, and no answer to a connect request ever makes the client give up a connection. (Refuted: the client takes the first datagram that arrives after a connect request for its answer, whatever it is. If that is another datagram, such as a telegram on the connection given up before, or if the answer takes more than 30 seconds, the next attempt reads the answer to the previous request; the answer to its own request then arrives within the connection and makes the client give it up. This can repeat for ever.)", "quantifier": "all executions of client and monitor, every number of repetitions, every datagram that is not a connect response, both build modes", "why_tests_cant": "The fault needs datagrams that cross a connect request or a slow server, any number of times in a row; a test tries few orders of arrival.", "anchors": ["src/transport/udp.rs:connect", "src/transport/udp.rs:try_connection", "src/transport/udp.rs:handle_recv_from_knx_device", "src/transport/udp.rs:parse_response", "src/transport/udp_monitor.rs:UdpMonitorTransport::connect"]}
{"id": "C97", "title": "What a read returns was received", "statement": "A value returned by a read, or shown by the monitor, was received: it is the value delivered by one datagram that was received and acknowledged. (Refuted: the program pads the datagram, the telegram and the value with zeros up to the lengths that they declare, and looks at the first 100 bytes of a datagram only. A telegram whose length octet says more than arrived makes the read return zeros that nobody sent, and of a correct telegram with a value of more than 79 bytes the read returns 79 bytes and zeros.)", "quantifier": "all executions of client and monitor, all datagrams, all values of up to 254 bytes, both build modes", "why_tests_cant": "A test compares a few values sent with the values read; that no execution returns bytes from elsewhere, such as an older datagram, needs all of them.", "anchors": ["src/packets/emi.rs:CEMI::from_packet", "src/packets/emi.rs:LDataInd::from_cemi", "src/transport/udp.rs:handle_recv_from_knx_device", "src/packets/tunneling.rs:TunnelingRequest::from_packet", "src/transport/udp.rs:UdpClient::read_group_address_value"]}
{"id": "C98", "title": "The constructor returns a client that can be used, or an error", "statement": "Connecting to a target returns a client, or monitor, only if a server at one of the addresses of the target has granted a connection; otherwise it returns an error, has sent nothing, and leaves nothing running. (Refuted: the constructors return an object as soon as the operating system has accepted an address, before anything has been sent. The first calls can fail, and if no server at that address ever grants a connection, every call fails for ever; the other addresses of the target are not tried.)", "quantifier": "all targets with any number of addresses, all choices of the operating system, all executions of client and monitor from the call of the constructor on, both build modes", "why_tests_cant": "A test connects to a server that is there; the absence of effects after an error, and calls before the first answer, depend on interleavings that a test does not control.", "anchors": ["src/transport/udp.rs:UdpTransport::connect", "src/transport/udp.rs:UdpClient::connect", "src/transport/udp_monitor.rs:UdpMonitorTransport::connect", "src/transport/udp_monitor.rs:UdpMonitor::connect"]}
{"id": "C99", "title": "Telegrams are acknowledged whether or not the application reads", "statement": "A connected client or monitor acknowledges every telegram as soon as it arrives (the standard allows one second, then the server closes the connection), also when the application makes no calls. (Refuted: telegrams that nobody reads are kept, at most 100. With 100 unread telegrams and one more the task waits for room and receives nothing, for up to a minute, until a heart beat is due; the telegram it holds is then lost. Apart from 102, at most one telegram per minute is acknowledged that the application does not read.)", "quantifier": "all executions of client and monitor, any number of telegrams of any content, both build modes", "why_tests_cant": "More than a hundred telegrams have to arrive at a program that does not call the library for a while; on a test installation nobody waits for that.", "anchors": ["src/transport/udp.rs:UdpTransport::connect", "src/transport/udp.rs:handle_recv_from_knx_device", "src/transport/udp_monitor.rs:UdpMonitorTransport::connect"]}
{"id": "C100", "title": "A call that is dropped does no harm", "statement": "When the future of a call is dropped (a caller gives up waiting, or wraps the call in its own timeout), the calls made later behave as if that call had not been made. (Refuted. It holds for a call that is dropped before it has drawn a sequence number or received anything, for `next_msg` before it has taken a telegram, and for a caller that still waits for its turn: every such execution is, without the call, also an execution, ending in the same state. No answer is lost to a read that is dropped and no indication to a `next_msg` that is dropped. But a write or read dropped between drawing its number and sending it leaves a gap after which a server that follows the standard discards the following requests, up to 254; and the confirmation of a write or the answer to a read that was dropped after sending is taken by a later call for its own.)", "quantifier": "all executions of client and monitor with any number of callers, any point at which the call is dropped, both build modes", "why_tests_cant": "A future has to be dropped at one of the few points between two awaits; a test drops it where the scheduler happens to be.", "anchors": ["src/transport/udp.rs:UdpTransport::tunnel_req", "src/transport/udp.rs:UdpClient::read_group_address_value", "src/transport/udp.rs:UdpClient::write_group_address_value", "src/transport/udp.rs:UdpClient::get_connection_status", "src/transport/udp_monitor.rs:UdpMonitor::next_msg"]}
{"id": "C101", "title": "Every telegram that arrives is delivered", "statement": "Every datagram with a telegram that arrives at the socket is acknowledged and handed to the application, once and in the order of arrival. (Refuted. Three receivers listen on one socket and each takes what comes next: a status query of the client and a disconnect call of the monitor take any telegram for their response, fail, and neither acknowledge nor deliver it; an attempt to connect discards a telegram that comes before the connect response and has failed with it. Exactly: the telegrams missing are at most one that is being worked on, one per interrupt by a heart beat, per acknowledgement that could not be sent, per finding the message channel closed, per status query (client) or disconnect call (monitor), and per attempt to connect that did not lead to a connection; without these events none is missing.)", "quantifier": "all executions of client and monitor, all datagrams, both build modes", "why_tests_cant": "Which of two concurrent receivers on one socket gets a datagram depends on the scheduler; the telegram has to arrive between request and response.", "anchors": ["src/transport/udp.rs:UdpTransport::get_connectionstate", "src/transport/udp.rs:try_connection", "src/transport/udp.rs:handle_recv_from_knx_device", "src/transport/udp.rs:UdpTransport::connect", "src/transport/udp_monitor.rs:UdpMonitorTransport::disconnect"]}
{"id": "C102", "title": "The kind of a telegram is on the wire", "statement": "The frame of a telegram is the one the standard prescribes for its transport service (broadcast, group, tag group, individual, connected with its number, connect, disconnect), for its destination (group or individual) and for its length. (Refuted: all services and numbers give the same frame, a telegram for a device is the frame of the telegram for the group with the same code, and the frame type is that of a standard frame even for more than 15 octets. Exactly: two telegrams have the same frame exactly if the two low bits of the priority, the code of the destination and the octets of the APDU agree; the frame is that of the standard exactly for broadcast, group and individual services to a group with at most 15 octets after the first, hence for every group read and for writes of up to 14 octets.)", "quantifier": "all services, numbers, destinations, priorities, APDUs up to 253 octets of data, both build modes", "why_tests_cant": "All combinations of service, destination and payload; the error is visible only by comparing with the standard.", "anchors": ["src/packets/tpdu.rs:TPDU::packet", "src/packets/tpdu.rs:TPDU::t_data_connected", "src/packets/emi.rs:LDataReqMessage::packet"]}
{"id": "C103", "title": "A temperature written to a group arrives", "statement": "A temperature that is written to a group (two-byte float, 9.001) is decoded by the receiver to a number within the resolution of the type: half a step of its exponent and the rounding of single precision. (Refuted: from 20.476 to 20.48 degrees, and wherever the mantissa rounds to 2048, zero is received; just below zero, and where the mantissa rounds to -2048, a receiver in a debug build panics, in a release build -634.88 degrees are received for the former; with an exponent of 8 or more, above 2621.44, less than four fifths are received. Holds for an exponent of at most 7 and any other mantissa; for 0 to 40.94 degrees without the gap below 20.48 the error is at most 0.0101 degrees.)", "quantifier": "all rational temperatures (hence all finite f32), all group addresses, both build modes of sender and receiver", "why_tests_cant": "All numbers; the failing ones are narrow intervals of ordinary room temperatures.", "anchors": ["src/dp_types.rs:PdtKnxFloat", "src/dp_types.rs:calimero_float_to_bytes", "src/dp_types.rs:bytes_to_float", "src/packets/apdu.rs:APDU::group_value_write_pd"]}
{"id": "C104", "title": "With a server that answers, a missing connection is there soon, in every schedule", "statement": "Whenever a client or monitor is without a connection and from then on its server answers every connect request within R < 30 s (and sending and receiving work), it is connected again within 40 s + R, whatever the application does meanwhile and however the steps of application and background task interleave; after the loss of a connection, and after construction, within R. Such runs never get stuck before that, and the bound is exact.", "quantifier": "every mode, R, kind of object, reachable state without a connection and every run from it of any length (client and monitor, any calls, cancellations, subscribers, telegrams), under: time passes only while the task has nothing to do, its timers fire on time, each connect request sent in the run is answered within R by a response granting a connection", "why_tests_cant": "A bounded-response property of all schedules and all behaviours of the application; tests exercise a few schedules with real clocks, and the longest time occurs only after an unanswered request.", "anchors": ["src/transport/udp.rs:UdpTransport::connect", "src/transport/udp.rs:connect", "src/transport/udp.rs:try_connection", "src/transport/udp_monitor.rs:UdpMonitorTransport::connect"]}
{"id": "C105", "title": "What a call waits for is passed on at once", "statement": "When a telegram arrives that a waiting call wants, and no older telegram is unread, the call returns before any time passes, with what this telegram says: a read with the value of an indication for its group, a write on a confirmation, and on the monitor one of the waiting calls of next_msg with the indication; no call returns anything before that. Whatever else arrives and is called meanwhile; the only exceptions are that a heart beat is due at this moment, that the acknowledgement cannot be sent, that the caller gives up, or that the call's time is already over.", "quantifier": "every mode, reachable state of client or monitor with waiting calls and an empty message queue, every datagram carrying a telegram, and every run from it of any length in which time passes only while neither task nor calls can go on", "why_tests_cant": "Concerns all interleavings of socket, background task, timer and any number of callers between two instants; a test sees that a value came, not that no schedule delays or replaces it.", "anchors": ["src/transport/udp.rs:handle_recv_from_knx_device", "src/transport/udp.rs:UdpClient::read_group_address_value", "src/transport/udp.rs:UdpClient::write_group_address_value", "src/transport/udp_monitor.rs:UdpMonitor::next_msg"]}
{"id": "C106", "title": "Only a datagram that is exactly one frame is acted on", "statement": "A datagram whose size is not the one its length field states, because bytes are missing or further ones follow, is not taken for a message. (Refuted: missing bytes count as zeros and further ones are ignored, so that six bytes without any body end the session, of two telegrams in one datagram the second is lost, and the length field of a connect response may be anything from 8 on. Exactly: a datagram is taken for a message if and only if its first 100 bytes are a frame denoting it followed by anything, or such a frame without some zeros at its end. With the right length field, it is exactly one frame.)", "quantifier": "every datagram, every state in which the task receives, client and monitor", "why_tests_cant": "All byte strings of all lengths; tests use well-formed frames.", "anchors": ["src/transport/udp.rs:handle_recv_from_knx_device", "src/transport/udp.rs:parse_response", "src/transport/udp.rs:try_connection", "src/packets/core.rs:ConnectionResponse::from_packet", "src/packets/core.rs:DisconnectResponse::from_packet"]}
{"id": "C107", "title": "Calls do not influence what the library does of its own accord", "statement": "What a client does without being asked (connect requests, acknowledgements, heart beats, answers to the server, connections coming and going, telegrams put into the queue, its end) is determined by what happens to its background task: what it receives, whether its sending succeeds, and when. Two applications using the client in any way, as long as neither drops it, see and cause the same of all this; and without any call the client does the same, as long as no more than 100 telegrams are left unread. The same holds for a monitor without subscribers.", "quantifier": "every pair of executions of any length with the same events of the task and any events of the application (calls, cancellations, any interleaving), both build modes", "why_tests_cant": "A property of pairs of executions (non-interference); a test compares two runs at most and cannot repeat the same schedule.", "anchors": ["src/transport/udp.rs:UdpTransport::connect", "src/transport/udp.rs:handle_recv_from_knx_device", "src/transport/udp_monitor.rs:UdpMonitorTransport::connect"]}
{"id": "C108", "title": "The monitor shows a telegram as it was on the bus", "statement": "The source, the destination and the data which `next_msg` of the monitor shows for a telegram are those the telegram had on the bus. (Refuted for standard frames in an L_Busmon.ind, the frames nearly all telegrams have: everything is looked for one octet too late, so that a 1 written by 1.1.2 to 1/0/1 is shown as the value 21 from 0.2.8 to 0/1/225, the value being six bits of the check octet. The addresses are right exactly if all their octets and the one after them are equal. Refuted also for telegrams without APCI in an L_Data.ind, which are shown as errors. It holds for every L_Data.ind with an APCI and for every extended frame in an L_Busmon.ind.)", "quantifier": "every execution, every telegram of every length, all addresses and data", "why_tests_cant": "All addresses and lengths, and real bus monitor frames; tests are made from what the decoder expects.", "anchors": ["src/transport/udp_monitor.rs:UdpMonitor::next_msg", "src/packets/emi.rs:LDataInd::from_cemi"]}
{"id": "C109", "title": "A subscriber of the monitor can tell whether there is a connection", "statement": "Who registers for notifications and asks `is_connected` knows from then on of every connection. (Refuted for asking first: the connection may be established between the answer and the registration, and the subscriber is never told of it, however long it lasts. Subscribing first and then asking is safe: who is answered `false` is told of the connection when there is one. Exactly: a subscriber whose channel is open has been told of every connection established after its registration once for each registration, and nobody is told of more.)", "quantifier": "every execution of any length, any number of connections, subscribers, registrations and channel capacities", "why_tests_cant": "A race between two calls of the application and the background task; a test sees one interleaving.", "anchors": ["src/transport/udp_monitor.rs:UdpMonitor::add_on_connect", "src/transport/udp_monitor.rs:UdpMonitor::is_connected", "src/transport/udp_monitor.rs:UdpMonitorTransport::connect"]}
{"id": "C110", "title": "A heart beat that is being sent holds nobody up", "statement": "While a heart beat waits for the socket to take it, calls can be made, sent and answered. (Refuted for the client, which holds the data of the connection locked while it sends a heart beat: no call made meanwhile sends anything or returns, however long it takes, apart from writes that panic for their argument. Exactly: a call that needs the data of the connection waits for it exactly while a heart beat is on its way. It holds for the monitor.)", "quantifier": "every execution of any length, every call, any duration of the sending", "why_tests_cant": "A lock held across an await; a test would have to block the socket at the moment of a heart beat.", "anchors": ["src/transport/udp.rs:UdpTransport::connect", "src/transport/udp.rs:UdpTransport::get_next_sequence_nr", "src/transport/udp_monitor.rs:UdpMonitorTransport::connect"]}
{"id": "C111", "title": "The message about a rejected response tells which field is wrong", "statement": "If the response to a status query (client) or to a disconnect request (monitor) is rejected, the message of the error names the first field of the header that does not fit, and its value: two responses are rejected with the same message iff the same field is wrong with the same value. (Refuted for the version: for every wrong version the message says that the version is 6, which is the size of the header; so do the messages about search responses. Exactly: the messages are the same iff the same field is wrong with the same value, or the version is wrong in both. For the monitor, provided that different errors are shown differently.)", "quantifier": "every execution of any length, every datagram, every wrong value of every field, all texts of the standard library", "why_tests_cant": "All datagrams; and the message of an error is not compared in tests.", "anchors": ["src/packets/core.rs:ConnectionstateResponse::from_packet", "src/packets/core.rs:DisconnectResponse::from_packet", "src/packets/core.rs:SearchResponse::from_packet", "src/transport/udp.rs:UdpTransport::get_connectionstate", "src/transport/udp_monitor.rs:UdpMonitorTransport::disconnect"]}
{"id": "C112", "title": "The message of a failed call tells why it failed", "statement": "Whenever a call returns an error, its message names the cause, and that cause can be observed: there is no connection; the request could not be sent; ten seconds have passed without an answer; the connection task has ended; a telegram is too short, and which part of it is missing; a message with another code than that of a confirmation was received, and its code; the socket failed; the response does not fit, and which field. Two errors with the same message have the same cause. (Proved for the client but for which wrong version a response has, see C111, and for writes, disconnects and next_msg of monitors. Refuted for solecitate_group_read of monitors: it says that a connection state request could not be sent, whatever it fails for, even if it tried to send nothing; and for writes of clients: an ordinary telegram of another participant is said to have an unknown message code.)", "quantifier": "every execution of any length, every call, every cause, all texts of the standard library", "why_tests_cant": "Each cause needs its own failure of the network, at a given step of a call; and messages are not compared in tests.", "anchors": ["src/transport/udp.rs:UdpTransport::tunnel_req", "src/transport/udp.rs:UdpTransport::get_connectionstate", "src/transport/udp.rs:UdpTransport::disconnect", "src/transport/udp.rs:UdpClient::read_group_address_value", "src/transport/udp.rs:UdpClient::write_group_address_value", "src/transport/udp_monitor.rs:UdpMonitor::solecitate_group_read", "src/transport/udp_monitor.rs:UdpMonitor::next_msg", "src/packets/emi.rs:LDataInd::from_cemi"]}
{"id": "C113", "title": "The message about a rejected address names the part that is wrong", "statement": "If a text is rejected as an address, the message names the first thing that is wrong with it: the number of parts, or the first part that is no number or too large, with its text, its place and the reason; two texts are rejected with the same message only if the same is wrong with them. (Holds for individual addresses, for group addresses of one part, and for a wrong number of parts. Refuted for the parts of group addresses of two and three parts: their text is not in the message. Exactly: the messages are the same iff the same is wrong, or the part at the same place of a group address is wrong for the same reason.)", "quantifier": "all texts of any length; all ways of quoting texts that tell different texts apart", "why_tests_cant": "All texts: the message depends on where and how a part of any length is wrong; and messages are not compared in tests.", "anchors": ["src/packets/addresses.rs:KnxAddress::try_from", "src/packets/addresses.rs:IndividualAddress::try_from"]}
{"id": "C114", "title": "The message about rejected data is true", "statement": "If bytes are rejected as the data of a data point, what the message says about the number of bytes is true, and the cause is shown in place of a placeholder. (Proved for all types but the 16-bit signed integer. Refuted for that one: of every single byte it is said that the first byte cannot be got. Refuted for the placeholder: the messages of the integers of 16 and 32 bits show {e} literally.)", "quantifier": "every byte string of any length, every data point type, debug and release builds", "why_tests_cant": "All byte strings; and messages are not compared in tests.", "anchors": ["src/dp_types.rs:PdtKnxInt::from_bytes", "src/dp_types.rs:PdtKnxWord::from_bytes", "src/dp_types.rs:PdtKnxULong::from_bytes", "src/dp_types.rs:PdtKnxScaledValue::from_bytes", "src/dp_types.rs:PdtKnxByte::from_bytes", "src/dp_types.rs:PdtKnxBit::from_bytes", "src/dp_types.rs:PdtKnxB1U3::from_bytes", "src/dp_types.rs:bytes_to_float"]}
{"id": "C115", "title": "A call whose request is replied to succeeds, in every schedule", "statement": "If a read or write is started on a standing connection while nothing it could mistake for its reply is queued, its request is replied to within R < 10 seconds after it was sent (a read by an indication for its group, a write by a confirmation), sending and receiving work, and no heart beat falls due at the very moment a telegram is being passed on, then in every order of the steps the first thing the call returns is success with the value of the reply, at most R milliseconds after it was started; and as long as it has not returned, the run can go on to its return.", "quantifier": "every reachable state, call, address, value, reply and R, any number of acknowledgements, heart beats and telegrams for others in between, every interleaving of the task and the call, debug and release builds", "why_tests_cant": "All interleavings of the task with the call and all traffic in between, including a full message channel.", "anchors": ["src/transport/udp.rs:UdpClient::read_group_address_value", "src/transport/udp.rs:UdpClient::write_group_address_value", "src/transport/udp.rs:UdpTransport::tunnel_req", "src/transport/udp.rs:handle_recv_from_knx_device"]}
{"id": "C116", "title": "Every program of reads and writes gets the right results from a server that replies", "statement": "A caller makes reads and writes one after another on a standing connection, with pauses of any length. If each request is replied to within R < 10 seconds (a read by an indication for its group, a write by a confirmation), no telegram arrives that one of the calls of the program could mistake for its reply, sending and receiving work, and no heart beat falls due at the very moment a telegram is being passed on, then the calls return exactly the expected results, in order; and every run of the program can be continued to its end.", "quantifier": "every program (any number of calls, addresses, values), every reachable state, pause and R, any number of acknowledgements, heart beats and unrelated telegrams during and between the calls, every interleaving, debug and release builds", "why_tests_cant": "Programs of any length, all interleavings and all pauses between calls (heart beats in between).", "anchors": ["src/transport/udp.rs:UdpClient::read_group_address_value", "src/transport/udp.rs:UdpClient::write_group_address_value", "src/transport/udp.rs:UdpTransport::tunnel_req", "src/transport/udp.rs:handle_recv_from_knx_device"]}
{"id": "C117", "title": "Every one of any number of concurrent callers gets the right result, in time, from a server that replies", "statement": "Any number of tasks call reads and writes on one connected client at the same time, at any moments; some may give up while they wait for their turn. If each request is replied to within R < 10 seconds of being sent (a read by an indication for its group, a write by a confirmation), no telegram arrives that one of the calls could mistake for its reply, sending and receiving work, and no heart beat falls due at the very moment a telegram is being passed on, then each caller whose call gets its turn gets exactly the result of its own request, in the order of the turns; a caller before whom n others are waiting has its result after (n + 2)\u00b7R; and every run can be continued until everybody has been served.", "quantifier": "every number of callers, every moment at which they call or give up, all addresses and values, every reachable state and R, any number of acknowledgements, heart beats and unrelated telegrams, every interleaving, debug and release builds", "why_tests_cant": "Unboundedly many callers and all interleavings of their calls with the background task; the bound is on the time of every caller in every schedule.", "anchors": ["src/transport/udp.rs:UdpClient::read_group_address_value", "src/transport/udp.rs:UdpClient::write_group_address_value", "src/transport/udp.rs:UdpTransport::tunnel_req", "src/transport/udp.rs:handle_recv_from_knx_device"]}
{"id": "C118", "title": "The second encoder for two-byte floats could take the place of the one in use", "statement": "The crate contains a second, unused encoder for DPT 9 values. For every number it should yield two bytes that denote that number to the precision of the format, without panicking, so that it could replace the encoder in use.", "quantifier": "every f32 value (NaN and infinities included) for the absence of panics; every finite value below 2^32 hundredths, except multiples of 327.68, for the bytes; debug and release builds", "why_tests_cant": "All f32 values; the bytes depend on the place of the highest bit, found by a loop over the bits, so whole ranges of values behave differently.", "anchors": ["src/dp_types.rs:_float_to_bytes"]}
{"id": "C119", "title": "The library does not amplify traffic", "statement": "However a server, or somebody who forges its datagrams, behaves, the background task of the client sends at most one datagram for each datagram it receives, apart from one every ten seconds (asking for a connection), one a minute (heart beats) and two; that of the monitor at most one more for each answer to a connect request. The bound holds from the start and, with one datagram more, from any later point on: the allowance does not build up. No such datagram has more than 26 bytes. A call adds at most one datagram.", "quantifier": "every execution of client and monitor, every datagram received, every scheduling and duration, debug and release builds", "why_tests_cant": "A bound on a ratio over unboundedly long executions against every behaviour of the network; tests count what was sent for a few inputs.", "anchors": ["src/transport/udp.rs:connect", "src/transport/udp.rs:try_connection", "src/transport/udp.rs:handle_recv_from_knx_device", "src/transport/udp_monitor.rs:UdpMonitorTransport::connect", "src/transport/udp_monitor.rs:enable_busmonitor"]}
{"id": "C120", "title": "On the network, the library is exactly this automaton", "statement": "What can be seen on the network of the background task - the datagrams handed to it and the datagrams it sends, in order - is described completely by six stages of a session (no connection; asked for one; monitor: granted, bus telegrams not yet asked for; connected; connected and an acknowledgement due; over) and 21 moves between them, each with at most one datagram and described by the bytes of that datagram. Whatever the application, the network, the schedule and the clock do, the datagrams seen are a walk through these stages; and every walk, of any length, can be seen, even of a library all of whose timers fire on time.", "quantifier": "every execution of client and monitor, every datagram, every walk of any length, debug and release builds", "why_tests_cant": "An equality of two infinite sets of unboundedly long sequences: no test shows that nothing else can happen.", "anchors": ["src/transport/udp.rs:UdpTransport::connect", "src/transport/udp.rs:connect", "src/transport/udp.rs:try_connection", "src/transport/udp.rs:handle_recv_from_knx_device", "src/transport/udp.rs:parse_response", "src/transport/udp_monitor.rs:UdpMonitorTransport::connect", "src/transport/udp_monitor.rs:enable_busmonitor"]}
{"id": "C121", "title": "A feature request carries the next number of the connection, or is not sent", "statement": "A call of `set_feature` of the client's or the monitor's transport, made in any state that can be reached and interleaved in any way with the background task, ends in exactly one of these ways: without a connection it returns an error and nothing is drawn or sent; it draws the next number of the connection and sends one datagram, byte for byte the feature request of the standard for the given feature and value with that number, on the channel of the connection there is when it is sent (Ok) or fails to (error); the connection is lost in between and the number is used up without a datagram; or the caller gives up. Wherever there is a connection whose data the task does not hold locked, the request can be sent.", "quantifier": "every reachable state of client and monitor, every feature and value, every interleaving with the task, debug and release builds", "why_tests_cant": "The number depends on the whole history of the connection and the call can be interleaved with any part of the task; the method is not called anywhere in the crate, so no test reaches it.", "anchors": ["src/transport/udp.rs:UdpTransport::set_feature", "src/transport/udp_monitor.rs:UdpMonitorTransport::set_feature", "src/packets/tunneling.rs:FeatureSet"]}
{"id": "C122", "title": "A read that gave up has no effect on later reads", "statement": "A group read that has given up (after ten seconds, or because its caller dropped it) is over: an answer that arrives afterwards is not taken for the answer to another read. In particular, as long as the server answers every read, the n-th read that is answered returns the n-th answer.", "quantifier": "every execution of the client whose calls are reads of one group, every number of reads, every answer", "why_tests_cant": "The effect lasts for any number of reads; a test with one late answer and one further read looks like a single stale value.", "anchors": ["src/transport/udp.rs:UdpClient::read_group_address_value", "src/transport/udp.rs:handle_recv_from_knx_device"]}
{"id": "C123", "title": "A write succeeds because of its own confirmation", "statement": "A group write that reports success does so because the server has confirmed this write: a confirmation that arrives after its write has given up is not taken for that of another one. In particular, as long as the server confirms every write, no write reports success before its confirmation has arrived.", "quantifier": "every execution of the client whose calls are writes, every number of writes, every confirmation", "why_tests_cant": "The effect lasts for any number of writes; a test that looks at results only sees successes.", "anchors": ["src/transport/udp.rs:UdpClient::write_group_address_value", "src/transport/udp.rs:handle_recv_from_knx_device"]}
{"id": "C124", "title": "Telegrams that wait take no more room than the datagrams that brought them", "statement": "A telegram that waits to be taken by the application takes no more bytes than the datagram it came in, so that the memory used is in proportion to the traffic. (Refuted: a telegram takes as many bytes as the length field of its datagram announces, up to 65525, whatever the size of the datagram; a hundred datagrams of twelve bytes fill 6552500 bytes. Exactly: the size is the announced one less ten; if a block of additional information is cut short it may be more, but then at most 346. The total never exceeds 6552500.)", "quantifier": "every datagram and telegram; every reachable state of client and monitor", "why_tests_cant": "The amplification needs a wrong length field and is not visible in what is returned; tests do not measure memory.", "anchors": ["src/packets/tunneling.rs:TunnelingRequest::from_packet", "src/packets/emi.rs:CEMI::from_packet", "src/transport/udp.rs:handle_recv_from_knx_device"]}
{"id": "C125", "title": "Subscriptions that have ended are forgotten", "statement": "When the receiver of a subscriber to connection events is dropped, the monitor forgets the subscription; so it keeps no more subscriptions than there are receivers alive. (Refuted: while the connection lasts nothing is forgotten, and any number of subscriptions whose receivers are all gone can be kept; they are forgotten when the next connection is announced.)", "quantifier": "every execution of the monitor, every number of subscriptions", "why_tests_cant": "The leak shows only in memory, over a long time with a stable connection.", "anchors": ["src/transport/udp_monitor.rs:UdpMonitorTransport::connect", "src/transport/udp_monitor.rs:UdpMonitorTransport::add_on_connect"]}
{"id": "C126", "title": "Each call of a client lives one of the listed stories, and each story happens", "statement": "Whatever the server, the network and the background task do, what is seen of the application that uses a client is a sequence of stories, the last one perhaps unfinished, and after the drop of the client nothing. A story is a call, what it does, and its return or the drop of its future: a read or write draws a number, sends its request under this number (exact bytes), and ends (read: passing over any telegrams that are not indications for its address, it returns the value of the first that is, or an error on a short one; write: the first telegram decides, () iff it is a confirmation); a status query or disconnect sends its request and ends (status: with the first datagram it receives itself; disconnect: with any telegram); each may end with an error before a number is drawn, before the request is sent, when it cannot be sent (a panic of a disconnect), and when waiting; writes of some lengths panic. A sequence of observations that starts with a call and contains no other is seen in some execution iff it is a story (if the telegrams in it can be sent at all).", "quantifier": "every execution of any length, every call, every sequence of telegrams passed over; conversely every story", "why_tests_cant": "The claim is an equality of two infinite sets of observation sequences; a test shows one sequence, and never that another one is impossible.", "anchors": ["src/transport/udp.rs:UdpTransport::tunnel_req", "src/transport/udp.rs:UdpTransport::get_connectionstate", "src/transport/udp.rs:UdpTransport::disconnect", "src/transport/udp.rs:UdpClient::read_group_address_value", "src/transport/udp.rs:UdpClient::write_group_address_value"]}
{"id": "C127", "title": "The error of a failed search tells what is wrong with the response", "statement": "Whenever a search that could send its request returns an error, either its socket failed, or the last datagram it got, continued with what is left of the earlier ones in the receive buffer, has a flaw, and no datagram before had one; conversely a datagram with a flaw ends the search with an error. The text of the error is fixed by the first flaw in the order header size, version, service, endpoint size, first block, second block: it names the field, and its value (a block: its unknown type, its unknown medium, what is cut off by the end of the buffer, or the whole block if it is of the wrong type). Two flaws other than blocks of the wrong type have the same text iff they are the same or both wrong versions; whether a block is of the wrong type, and which of the two, can be read off the text as well.", "quantifier": "every sequence of datagrams of any contents and lengths, both build modes, every formatting of blocks by the standard library", "why_tests_cant": "A test shows one text for one response; that the first flaw decides, that no flaw goes unnoticed, and that two flaws never share a text needs all responses.", "anchors": ["src/transport/udp.rs:UdpClient::search", "src/packets/core.rs:SearchResponse::from_packet", "src/packets/core.rs:DIB::from_packet", "src/packets/core.rs:HPAI::from_packet", "src/packets/core.rs:KnxNetIpHeader::from_packet"]}
{"id": "C128", "title": "Each call of a monitor, and each call of next_msg, lives one of the listed stories, and each story happens", "statement": "Whatever the server, the network, the task and the other callers do: (1) the calls of a monitor other than next_msg are seen one after the other, the last one perhaps unfinished, and nothing after the drop of the monitor. A solicited read or a write draws a number, sends one request under it (exact bytes) and returns (), without waiting for anything; it ends with an error if there is no connection before it sends or if it cannot send, and with a panic if the telegram is too long. A disconnect sends its request and returns the status of the first datagram it receives itself, or an error if that is not a well-formed disconnect response; it panics if it cannot send or receive. is_connected returns a truth value, a registration registers. (2) What is seen of one caller of next_msg is its calls one after the other: each passes over telegrams that are not indications and returns exactly what the first indication tells (the telegram, addresses, flags of the first control octet, value), an error if that is too short, or an error when the task has ended; the monitor is dropped only between the calls. (3) A sequence of observations that starts with a call and contains no other is seen in some execution iff it is a story (if the telegrams in it can be sent at all).", "quantifier": "every execution of any length, any number of concurrent callers of next_msg; conversely every story", "why_tests_cant": "The claim is an equality of two infinite sets of observation sequences under arbitrary concurrency; a test shows one sequence, and never that another one is impossible.", "anchors": ["src/transport/udp_monitor.rs:UdpMonitorTransport::tunnel_req", "src/transport/udp_monitor.rs:UdpMonitorTransport::disconnect", "src/transport/udp_monitor.rs:UdpMonitor::next_msg", "src/transport/udp_monitor.rs:UdpMonitor::write_group_address_value", "src/transport/udp_monitor.rs:UdpMonitor::is_connected"]}
{"id": "C129", "title": "Whether overflow checks are compiled in matters for exactly these inputs", "statement": "A debug build and a release build of the library behave alike except for a list of inputs that cannot be shortened. (1) Functions: the two builds give different results exactly for cEMI frames with more than 255 octets of additional information, telegrams whose transport data unit has a length divisible by 256, requests whose length does not fit 16 bits, description blocks and search responses with a block that is too short for its type, percentages (DPT 8.010) whose hundredfold does not fit 16 bits, two-byte floats with mantissa -2048, and encoded floats whose hundredfold is infinite (panic in a debug build, endless loop in a release build); the unused encoder never differs. (2) Clients and monitors: an execution in which no write of a value whose telegram or request length does not fit its length field, and no tunneling request with too much additional information, is seen is an execution of the one build iff it is one of the other, with the same state at the end. (3) Each of these observations occurs in an execution of the release build that no debug build has. (4) As long as nothing panics, whatever a debug build does a release build can do. (5) A search that does not panic in a debug build goes the same way in a release build; if it goes otherwise, the debug build has panicked at a datagram that completes an impossible search response.", "quantifier": "all inputs of the functions; every execution of a client, a monitor and a search, of any length; every observation on the list", "why_tests_cant": "A test suite runs in one build mode; that two programs differ nowhere else is a statement about all inputs and all executions of both.", "anchors": ["src/packets/emi.rs:CEMI::from_packet", "src/packets/emi.rs:LDataReqMessage::packet", "src/packets/tunneling.rs:TunnelingRequest::packet", "src/packets/core.rs:DIB::from_packet", "src/packets/core.rs:SearchResponse::from_packet", "src/dp_types.rs:bytes_to_float", "src/dp_types.rs:calimero_float_to_bytes", "src/transport/udp.rs:UdpClient::write_group_address_value", "src/transport/udp_monitor.rs:UdpMonitor::write_group_address_value"]}
{"id": "C130", "title": "Two datagrams can be exchanged for each other exactly if they have the same effect", "statement": "Every datagram that arrives while a connection exists has exactly one of seven effects: it is ignored, the connection is given up, the library ends, it panics, the datagram is acknowledged (channel, sequence number) and nothing else happens, it is acknowledged and a telegram is passed on, or it is acknowledged and the library panics; which one depends only on the first hundred octets (missing octets count as zero, but the empty datagram is ignored), and datagrams that decode to the same message have the same one. Two datagrams of the same effect cannot be told apart: whatever a client or a monitor, with its callers, does before and after the one it can do before and after the other. Two datagrams of different effects can be told apart: there are executions with the one that do not exist with the other, and what is seen next gives the effect away.", "quantifier": "all pairs of datagrams of any length; every execution of a client or a monitor, with everything before and after the datagram; both builds", "why_tests_cant": "The claim is an equivalence over all pairs of byte strings and all surrounding executions (interleavings of calls, timers and faults); a test can only show single pairs to be treated alike in single runs.", "anchors": ["src/transport/udp.rs:handle_recv_from_knx_device", "src/transport/udp.rs:parse_response", "src/transport/udp_monitor.rs:UdpMonitorTransport::connect", "src/packets/tunneling.rs:TunnelingRequest::from_packet"]}
{"id": "C131", "title": "The message of a rejected packet names the field at which it is rejected", "statement": "When a decoder of a packet or of a part of one (endpoint, connection response data, header, connection response, connection state request and response, disconnect request and response, tunnelling request, acknowledgement, feature response, search request, cEMI frame) rejects octets, its message is the one that belongs to the first field that is missing or has a value it may not have; two messages are the same only if the fault is the same: the same field, missing or with the same value.", "quantifier": "all decoders of packets::core, packets::tunneling and packets::emi, all byte strings of any length, both build modes, all texts the standard library may give for a read beyond the end", "why_tests_cant": "A message is tested for a few packets, if at all; that no two faults of the same packet share a message is a statement about all pairs of byte strings.", "anchors": ["src/packets/core.rs:HPAI::from_packet", "src/packets/core.rs:CRD::from_packet", "src/packets/core.rs:KnxNetIpHeader::from_packet", "src/packets/core.rs:ConnectionResponse::from_packet", "src/packets/core.rs:ConnectionstateRequest::from_packet", "src/packets/core.rs:DisconnectRequest::from_packet", "src/packets/core.rs:SearchRequest::from_packet", "src/packets/tunneling.rs:verify_header", "src/packets/tunneling.rs:TunnelingRequest::from_packet", "src/packets/tunneling.rs:TunnelingAck::from_packet", "src/packets/tunneling.rs:FeatureResp::from_packet", "src/packets/emi.rs:CEMI::from_packet"]}
{"id": "C132", "title": "A packet cut short anywhere is rejected, and what follows a packet does not change it", "statement": "If a decoder accepts some octets as a packet, it rejects every shorter beginning of that packet, with the message that belongs to the first field that is not there completely; and it accepts the packet followed by anything, with the same result. (Refuted for tunnelling requests and cEMI frames: a tunnelling request cut short behind its tenth octet is accepted with zeros for what is missing, and if anything but zeros follows such a request it is taken for a part of it; a cEMI frame that ends within its additional information is accepted with zeros as well.)", "quantifier": "all decoders of packets::core (fixed layouts, search responses and the six description blocks), of packets::tunneling and of packets::emi, all byte strings of any length, all places of the cut, all octets that follow", "why_tests_cant": "A test cuts one packet at one place; the claim is about every accepted packet, every place of the cut and everything that may follow.", "anchors": ["src/packets/core.rs:HPAI::from_packet", "src/packets/core.rs:CRD::from_packet", "src/packets/core.rs:KnxNetIpHeader::from_packet", "src/packets/core.rs:ConnectionResponse::from_packet", "src/packets/core.rs:ConnectionstateRequest::from_packet", "src/packets/core.rs:ConnectionstateResponse::from_packet", "src/packets/core.rs:DisconnectRequest::from_packet", "src/packets/core.rs:DisconnectResponse::from_packet", "src/packets/core.rs:SearchRequest::from_packet", "src/packets/tunneling.rs:TunnelingRequest::from_packet", "src/packets/tunneling.rs:TunnelingAck::from_packet", "src/packets/tunneling.rs:FeatureResp::from_packet", "src/packets/emi.rs:CEMI::from_packet", "src/packets/core.rs:DIB::from_packet", "src/packets/core.rs:SearchResponse::from_packet"]}
{"id": "C133", "title": "A packet that is decoded and encoded again is the same packet", "statement": "If a decoder accepts some octets as a packet and leaves the rest, then encoding the result and appending the rest gives back the octets that were decoded. (Holds for headers, endpoints, connection response data blocks, connection state responses, disconnect responses and tunnelling acknowledgements. Holds for connection state requests, search requests, tunnelling requests and description blocks under conditions that are given exactly. Never holds for connection responses, disconnect requests, feature responses, search responses and manufacturer data, and for KNX address blocks never in debug builds.)", "quantifier": "all decoders of packets::core and packets::tunneling whose result has an encoder, all byte strings of any length, debug and release builds", "why_tests_cant": "A test compares one packet with its re-encoding; the claim is about every accepted byte string, including those with reserved octets set, false lengths or missing octets.", "anchors": ["src/packets/core.rs:KnxNetIpHeader::from_packet", "src/packets/core.rs:HPAI::from_packet", "src/packets/core.rs:CRD::from_packet", "src/packets/core.rs:ConnectionResponse::packet", "src/packets/core.rs:ConnectionstateRequest::packet", "src/packets/core.rs:ConnectionstateResponse::packet", "src/packets/core.rs:DisconnectRequest::packet", "src/packets/core.rs:DisconnectResponse::packet", "src/packets/core.rs:SearchRequest::packet", "src/packets/core.rs:SearchResponse::packet", "src/packets/core.rs:DIB::from_packet", "src/packets/tunneling.rs:TunnelingRequest::packet", "src/packets/tunneling.rs:TunnelingAck::packet", "src/packets/tunneling.rs:FeatureResp::packet"]}
{"id": "C134", "title": "Of two values the lower one is not shown as the higher one", "statement": "Of two pairs of octets, the one that denotes the lower two-byte float is decoded to the lower number, and pairs that denote the same number are decoded to the same number; of two temperatures that are written to groups, the lower one does not arrive as the higher one; of two raw percentages, the lower one is not read as the higher one. (Refuted for exponents from eight on, for the mantissa -2048, and for temperatures between 20.476 and 20.48 degrees, which arrive as zero degrees.)", "quantifier": "all pairs of octets, all temperatures as rational numbers with exponents up to seven outside the limits of the mantissa, all raw percentages, all senders, receivers and groups, debug and release builds", "why_tests_cant": "The order of all pairs of values cannot be tested: there are infinitely many temperatures, and the failures are at the limits of the mantissa.", "anchors": ["src/dp_types.rs:bytes_to_float", "src/dp_types.rs:calimero_float_to_bytes", "src/dp_types.rs:PdtKnxFloat::temp", "src/dp_types.rs:PdtKnxFloat::temp_from_bytes", "src/dp_types.rs:PdtKnxScaledValue::get_value"]}
{"id": "C135", "title": "Different messages are different octets", "statement": "Two messages that the library encodes to the same octets are the same message, also if they are of different kinds or encoded by builds of different kinds. (Refuted in four ways, which are all there are: the answer about a feature has the octets of the request to set it; its status is not written; device addresses out of range collide; the length and kind that a description block says of itself are not written with a search response.)", "quantifier": "all pairs of values of all twelve kinds of messages, with all addresses in range or not, payloads and lists of service families of any length, debug and release builds", "why_tests_cant": "All pairs of messages are too many to compare, and payloads and lists have no bound.", "anchors": ["src/packets/core.rs:ConnectionRequest::packet", "src/packets/core.rs:ConnectionResponse::packet", "src/packets/core.rs:SearchResponse::packet", "src/packets/core.rs:DeviceInformationDIB::packet", "src/packets/tunneling.rs:TunnelingRequest::packet", "src/packets/tunneling.rs:FeatureSet::packet", "src/packets/tunneling.rs:FeatureResp::packet"]}
{"id": "C136", "title": "Different requests to the bus are different frames", "statement": "Two requests to the bus that are encoded to the same frame are the same request, and two description blocks that are encoded to the same octets are the same block. Exactly: two requests have the same frame if and only if the low two bits of the priorities, the numbers of the destinations, the ten bits of the services with what is written into them, and the octets that follow are the same; two blocks have the same octets if and only if they differ in nothing but the length and kind they say of themselves and device addresses out of range with the same number. (Refuted for the rest: the kind of the transport message is not written, a device has the frame of the group with its number, parts out of range collide, and a small value that does not fit is another value.)", "quantifier": "all requests with all priorities, destinations of all kinds in range or not, all transport messages, services and values of any length, all description blocks with lists of any length, debug and release builds", "why_tests_cant": "All pairs of requests and of blocks are too many to compare, and values and lists have no bound.", "anchors": ["src/packets/emi.rs:LDataReqMessage::packet", "src/packets/tpdu.rs:TPDU::packet", "src/packets/apdu.rs:APDU::packet", "src/packets/apdu.rs:APCI::packet", "src/packets/addresses.rs:KnxAddress::to_u16", "src/packets/core.rs:DIB::packet"]}
{"id": "C137", "title": "Every text of an address is its printed text with plus signs and leading zeros", "statement": "The texts that are accepted for an address are exactly those made from the printed text of the address by putting zeros before its numbers, and perhaps a plus sign before the zeros. So the printed text is the shortest text of an address and the only one of its length, and zeros before a text, as many as one likes, change nothing.", "quantifier": "all strings of any length, all addresses of all four kinds", "why_tests_cant": "There are infinitely many texts of each address.", "anchors": ["src/packets/addresses.rs:KnxAddress::try_from", "src/packets/addresses.rs:IndividualAddress::try_from", "src/packets/addresses.rs:Group3LevelAddress::try_from"]}
{"id": "C138", "title": "Two packets that are accepted as the same message are the same packet", "statement": "Two packets that are decoded to the same message, with the same octets left over, are the same packet. This holds of headers, endpoints, connection response data blocks, connection state responses, disconnect responses and tunneling acknowledgements. Of the other packets the octets that do not matter are exactly: the length of connection responses and search requests; the length and the octet behind the channel of connection state requests; the first octet and the one behind the channel of disconnect requests; the octet behind the number of answers about features and of complete tunneling requests. (Refuted in general; tunneling requests that are cut short are also completed with zeros. Search responses and description blocks are not part of the statement.)", "quantifier": "all pairs of octet strings of any length that are accepted by the decoder of one of the twelve kinds of packets", "why_tests_cant": "All pairs of packets are too many, and what follows a packet has no bound.", "anchors": ["src/packets/core.rs:ConnectionResponse::from_packet", "src/packets/core.rs:ConnectionstateRequest::from_packet", "src/packets/core.rs:DisconnectRequest::from_packet", "src/packets/core.rs:SearchRequest::from_packet", "src/packets/tunneling.rs:TunnelingRequest::from_packet", "src/packets/tunneling.rs:FeatureResp::from_packet"]}
