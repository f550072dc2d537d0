{"id": "C01", "title": "NGT transmit envelope", "statement": "Every call that writes to the NGT port (Write, Send, every command method) hands the serial port exactly one buffer: DLE STX, the command byte, the payload length modulo 256, the payload with each 0x10 doubled, one checksum byte, DLE ETX; and command+length+payload+checksum sum to 0 modulo 256.", "quantifier": "every command byte and every payload of every length and content", "why_tests_cant": "the payload space is unbounded; a test samples a few payloads and cannot show the checksum identity or escaping for all", "anchors": ["actisense/actisense.go: Write, Send, write"]}
{"id": "C02", "title": "NGT transmit/receive framing round trip", "statement": "A buffer written to an NGT port, fed back to the same package's Read framing, yields back the original command, length, payload and checksum and nothing else. (True exactly when neither the length byte nor the checksum equals 0x10; the code does not escape those two bytes.)", "quantifier": "every command byte other than DLE and every payload", "why_tests_cant": "depends on arithmetic coincidences (length = 16 mod 256, checksum = 16) of arbitrary payloads", "anchors": ["actisense/actisense.go: write, Read"]}
{"id": "C03", "title": "NGT receive: every well-formed frame is decoded, in order", "statement": "For any sequence of well-formed escaped frames separated by arbitrary inter-frame bytes containing no DLE, successive Reads return exactly the messages of the frames that are acceptable, in order, none lost or duplicated.", "quantifier": "every sequence of frames, every content, every noise without DLE between frames", "why_tests_cant": "unbounded stream histories", "anchors": ["actisense/actisense.go: Read, messageReceived"]}
{"id": "C04", "title": "NGT receive: resynchronisation", "statement": "Whatever bytes were received before, the first complete well-formed frame leaves the reader at a clean frame boundary, so every later well-formed frame is decoded as if the reader were new: garbage costs at most one frame (unless it crashes the reader).", "quantifier": "every byte history", "why_tests_cant": "arbitrary garbage prefixes", "anchors": ["actisense/actisense.go: Read"]}
{"id": "C05", "title": "NGT receive: checksum protection", "statement": "A message is returned only if the unescaped frame bytes sum to 0 modulo 256, so a received frame in which exactly one byte of its content, as unescaped, was altered is never returned as a message. (This does not extend to one byte altered on the wire: one that becomes a DLE before a 0x03 ends the frame early.)", "quantifier": "every frame content, every position, every replacement byte; every stream history", "why_tests_cant": "all single-byte corruptions of all frames", "anchors": ["actisense/actisense.go: messageReceived, Read"]}
{"id": "C06", "title": "NGT receive: N2K header and data", "statement": "A returned N2K message has the priority, PGN (24-bit little endian), destination, source of the frame, Length at most 223, and Data consisting of exactly Length bytes taken from the frame after the 12-byte header.", "quantifier": "every frame accepted by the receiver", "why_tests_cant": "every frame content", "anchors": ["actisense/actisense.go: n2kMessageReceived"]}
{"id": "C07", "title": "NGT receive never crashes on line noise", "statement": "No byte sequence arriving from the NGT serial line makes Read panic. (False: a short frame with a valid checksum indexes out of range. The exact set of crashing frames is characterised.)", "quantifier": "every byte history and every allocator capacity choice", "why_tests_cant": "one crafted frame among all", "anchors": ["actisense/actisense.go: messageReceived, n2kMessageReceived, ngtMessageReceived"]}
{"id": "C08", "title": "NGT Send", "statement": "Send(frame) writes command 0x94 with payload priority, PGN (3 bytes little endian), destination, Length, first Length bytes of Data; if Data is shorter than Length it writes nothing and returns an error; it panics exactly when Length >= 250.", "quantifier": "every frame", "why_tests_cant": "all field values including the uint8 overflow region", "anchors": ["actisense/actisense.go: Send"]}
{"id": "C09", "title": "NGT command encodings", "statement": "Every Get/Set/Clear/Activate command method emits one envelope with command 0xA1 whose payload is the documented opcode followed by its little-endian arguments; PGN arguments are recoverable from the payload for every 32-bit value; distinct command methods never emit the same opcode/payload unless documented as aliases.", "quantifier": "every method and every argument value", "why_tests_cant": "argument spaces are 2^32", "anchors": ["actisense/commands.go: all methods, intToBytes"]}
{"id": "C10", "title": "NGT open sequence", "statement": "OpenChannel writes the operating-mode frame and then the P-code frame; if a write fails the later frames are not written and an error and nil port are returned.", "quantifier": "every pattern of port write failures", "why_tests_cant": "failure points", "anchors": ["actisense/actisense.go: OpenChannel"]}
{"id": "C11", "title": "NGT receive: empty reads are harmless", "statement": "A serial read that returns zero bytes without error does not change what Read decodes. (False: the previous byte is processed again.)", "quantifier": "every position of an empty read in every stream", "why_tests_cant": "needs every schedule of empty reads", "anchors": ["actisense/actisense.go: Read"]}
{"id": "C12", "title": "NGT management replies", "statement": "A returned NGT (0xA0) message has PGN 0x40000 plus the reply id, and carries exactly the declared bytes of the frame. (False when the declared length exceeds the frame: bytes past the end are exposed or the reader panics.)", "quantifier": "every frame accepted by the receiver, every capacity", "why_tests_cant": "all declared lengths and capacities", "anchors": ["actisense/actisense.go: ngtMessageReceived"]}
{"id": "C13", "title": "Fast-packet registry", "statement": "After any sequence of AddFastPacket calls the registry is strictly increasing, and a PGN is treated as fast packet iff it was added; adding twice has no effect and order of additions does not matter.", "quantifier": "every sequence of PGNs", "why_tests_cant": "unbounded insertion histories", "anchors": ["canusb/canframe.go: AddFastPacket, isFastPacket"]}
{"id": "C14", "title": "CAN identifier decoding", "statement": "For every 29-bit (and every 32-bit) identifier text, ParseFrame returns priority, source, and PGN/destination according to PDU1/PDU2: PF >= 240 means broadcast and the full 18-bit PGN, PF < 240 means destination PS and PGN with low byte zero.", "quantifier": "all identifiers", "why_tests_cant": "2^32 identifiers", "anchors": ["canusb/canframe.go: ParseFrame"]}
{"id": "C15", "title": "CANUSB frame syntax", "statement": "ParseFrame accepts exactly the Lawicel texts: prefix t/T/r/R, 3 or 8 hex digits, one length digit 0..8, exactly twice that many hex digits, and 4 further characters; on acceptance Data is exactly the decoded bytes and Length = number of data bytes.", "quantifier": "every byte string", "why_tests_cant": "all byte strings", "anchors": ["canusb/canframe.go: ParseFrame"]}
{"id": "C16", "title": "CANUSB receive never crashes on line noise", "statement": "No byte string makes ParseFrame panic. (False: a valid identifier with nothing after it, or a text too short for the identifier, panics; the set is characterised exactly.)", "quantifier": "every byte string and capacity", "why_tests_cant": "all byte strings", "anchors": ["canusb/canframe.go: ParseFrame"]}
{"id": "C17", "title": "CANUSB transmit text and round trip", "statement": "For priority <= 7, PGN < 2^17, a text written for a frame, with the adapter's 4-digit timestamp appended, is parsed by ParseFrame into the same priority, PGN, destination (255 for PDU2), data, with the port's own address as source.", "quantifier": "every priority, PGN, destination, address and payload of up to 8 bytes", "why_tests_cant": "2^40 headers x payloads", "anchors": ["canusb/canport.go: Write, Send", "canusb/canframe.go: ParseFrame"]}
{"id": "C18", "title": "CANUSB transmit: data page bits", "statement": "Any 18-bit PGN is preserved on transmission. (False: bit 17 is dropped by Write.)", "quantifier": "every PGN", "why_tests_cant": "needs all PGNs", "anchors": ["canusb/canport.go: Write"]}
{"id": "C19", "title": "CANUSB single-frame Send", "statement": "Send of a frame with at most 8 data bytes writes exactly one text carrying the first Length bytes; when Length exceeds the data it writes nothing and returns an error; it never panics.", "quantifier": "every frame with at most 8 bytes", "why_tests_cant": "all Length/Data combinations", "anchors": ["canusb/canport.go: Send, Write"]}
{"id": "C20", "title": "Fast-packet Send/receive round trip", "statement": "Send of a 9..223 byte payload, with the resulting frames received in order by the reassembler with any prior state, delivers exactly one message whose Data starts with the payload and whose Length is the payload size. (Holds exactly up to 192 bytes; beyond, the frame counter wraps.)", "quantifier": "every payload, group counter value, prior reassembly state", "why_tests_cant": "all lengths and prior states", "anchors": ["canusb/canport.go: Send, frameReceived"]}
{"id": "C21", "title": "Fast-packet Send conforms to NMEA 2000 framing", "statement": "The first frame carries 6 bytes and every later frame 7 bytes, sequence numbers 0,1,2,... without repetition. (False for payloads over 12 bytes: later frames carry 6.)", "quantifier": "every payload of 9..223 bytes", "why_tests_cant": "all lengths", "anchors": ["canusb/canport.go: Send"]}
{"id": "C22", "title": "Fast-packet reassembly of standard frames", "statement": "For every payload of 1..223 bytes split as 6+7+7+..., the frames received in order (any prior state) deliver exactly one message, at the last frame, with the payload as prefix of Data, Length the payload size, and header of the first frame.", "quantifier": "every payload, header, padding, prior state", "why_tests_cant": "all lengths, paddings", "anchors": ["canusb/canport.go: frameReceived"]}
{"id": "C23", "title": "Reassembly isolation", "statement": "Frames of fast packets with different source, PGN or (2-bit) group never influence each other: in any interleaving each stream behaves as if alone.", "quantifier": "every interleaving of any number of streams", "why_tests_cant": "all interleavings", "anchors": ["canusb/canport.go: frameReceived"]}
{"id": "C24", "title": "Reassembly distinguishes all 8 group ids and destinations", "statement": "Two concurrent fast packets of one source and PGN with different group ids or destinations are not mixed. (False: groups g and g+4 share a slot; destination and interface are not part of the key.)", "quantifier": "every pair of streams", "why_tests_cant": "interleavings", "anchors": ["canusb/canport.go: frameReceived"]}
{"id": "C25", "title": "Only complete fast packets are delivered", "statement": "A frame of a fast-packet PGN is delivered only as part of a complete reassembled message. (False: an out-of-sequence or orphan continuation frame is delivered raw.) Everything delivered otherwise is complete: Data has at least Length bytes.", "quantifier": "every frame history", "why_tests_cant": "all histories", "anchors": ["canusb/canport.go: frameReceived"]}
{"id": "C26", "title": "Reassembly memory is bounded", "statement": "At every moment each stored partial message holds fewer bytes than its declared length (so at most 254), and there is at most one per (source, PGN, group).", "quantifier": "every frame history", "why_tests_cant": "unbounded histories", "anchors": ["canusb/canport.go: frameReceived"]}
{"id": "C27", "title": "CANUSB line reader", "statement": "Read returns on the first carriage return after a frame start at which the frame is accepted; restarts on any t/T/r/R; bytes before a frame start are ignored; a rejected line is retried on the next carriage return with everything received since appended.", "quantifier": "every byte history", "why_tests_cant": "unbounded byte streams", "anchors": ["canusb/canport.go: Read"]}
{"id": "C28", "title": "Closed CANUSB port", "statement": "Read on a port that is not open returns an error without touching the serial line.", "quantifier": "every port state", "why_tests_cant": "states", "anchors": ["canusb/canport.go: Read"]}
{"id": "C29", "title": "Address claim NAME", "statement": "The address claim's 8 data bytes decode, under the ISO NAME layout, to unique number 0x1FFFFF, manufacturer 100, function 25, class 25, industry 4, arbitrary-address flag 1; it is sent from the claimed address.", "quantifier": "every preferred address", "why_tests_cant": "all addresses and layout arithmetic", "anchors": ["canusb/canport.go: AddressClaim"]}
{"id": "C30", "title": "Address claim is broadcast", "statement": "The address claim is sent to the global address 255. (False: it is addressed to 225.)", "quantifier": "every preferred address", "why_tests_cant": "wire-level", "anchors": ["canusb/canport.go: AddressClaim, Write"]}
{"id": "C31", "title": "Address conflict resolution", "statement": "After any message history the port's address is the initial one plus the number of conflicting claims (a claim whose source equals the then current address), modulo 256; each conflict emits exactly one new claim. Staying within 0..251 is false.", "quantifier": "every received message history", "why_tests_cant": "histories", "anchors": ["main/argo.go: processInterface", "canusb/canport.go: AddressClaim, Address"]}
{"id": "C32", "title": "CloseChannel", "statement": "CloseChannel sends the close command and closes the serial port. (False: it always panics before closing.)", "quantifier": "every port state", "why_tests_cant": "all states", "anchors": ["canusb/canport.go: CloseChannel, Write"]}
{"id": "C33", "title": "PGN lookup", "statement": "First/Last return the first/last table index with the given PGN, and index 0 when absent; First <= Last; all PGNs in the shipped table that occur several times occupy a contiguous index range.", "quantifier": "every table and PGN", "why_tests_cant": "all PGNs", "anchors": ["nmea2k/pgn_array.go: First, Last, PgnList"]}
{"id": "C34", "title": "Field offsets", "statement": "FieldOffsets(i) is the sum of sizes of earlier fields split into byte and bit, with ceil(size/8) bytes.", "quantifier": "every definition and index", "why_tests_cant": "all definitions", "anchors": ["nmea2k/raw_message.go: FieldOffsets"]}
{"id": "C35", "title": "Numeric extraction", "statement": "extractNumber returns exactly the `width` bits of the little-endian data starting at the given byte/bit whenever those bits lie in the byte window, and truncates the missing high bits to zero otherwise; it fails exactly when the window exceeds 8 bytes.", "quantifier": "all data, windows, offsets, widths", "why_tests_cant": "2^64 values x positions", "anchors": ["nmea2k/raw_message.go: extractNumber"]}
{"id": "C36", "title": "Numeric absence is reported", "statement": "A field whose bits are all ones (NMEA 2000 'not available') is reported as not present. (False: the test for it can never succeed.)", "quantifier": "all data and fields", "why_tests_cant": "all values", "anchors": ["nmea2k/raw_message.go: extractNumber"]}
{"id": "C37", "title": "Signed numeric extraction", "statement": "For signed fields of 8, 16, 32 or 64 bits the value is the two's-complement value of the bits. (False for other widths: no sign extension.)", "quantifier": "all values and widths", "why_tests_cant": "2^64 values", "anchors": ["nmea2k/raw_message.go: extractNumber"]}
{"id": "C38", "title": "Every table field is read in full", "statement": "For every shipped definition, every fixed-position numeric field is decoded from all of its bits. (False for 28 unaligned fields that straddle a byte more than their own size spans; proved for all others.)", "quantifier": "all shipped fields and all data", "why_tests_cant": "all data for 2204 fields", "anchors": ["nmea2k/pgn_array.go: PgnList", "nmea2k/raw_message.go: ParsePacket"]}
{"id": "C39", "title": "Latitude/longitude", "statement": "extractLatLon returns the two's-complement 4- or 8-byte value scaled by 1e-7/1e-16, and reports not present exactly for the two top sentinel values or other lengths.", "quantifier": "all data", "why_tests_cant": "2^64", "anchors": ["nmea2k/raw_message.go: extractLatLon"]}
{"id": "C40", "title": "Date", "statement": "extractDate maps day number d (not 0xFFFF) to the instant d*86400 s after the epoch. (False from day 49711 on: 32-bit overflow; exact below.)", "quantifier": "all 2-byte values", "why_tests_cant": "all values with the wrap", "anchors": ["nmea2k/raw_message.go: extractDate"]}
{"id": "C41", "title": "Time of day", "statement": "extractTime maps d ten-thousandths of a second to hours, minutes, seconds and the fraction. (Whole seconds exact for all d; fraction is ten times too small.)", "quantifier": "all 4-byte values", "why_tests_cant": "2^32", "anchors": ["nmea2k/raw_message.go: extractTime"]}
{"id": "C42", "title": "Temperature and pressure", "statement": "2-byte values 0..0xFFFC decode to value/100 (value/1000); 0xFFFD..0xFFFF and other lengths are errors.", "quantifier": "all data", "why_tests_cant": "all", "anchors": ["nmea2k/raw_message.go: extractTemperature, extractPressure"]}
{"id": "C43", "title": "Fixed strings", "statement": "extractString returns the bytes up to the first 0 or 255 within the field, and an error iff that is empty. (False for a field that ends exactly at the end of the message: always an error.)", "quantifier": "all data and windows", "why_tests_cant": "all", "anchors": ["nmea2k/raw_message.go: extractString"]}
{"id": "C44", "title": "Length-prefixed strings", "statement": "extractStringLZ returns the L-1 bytes after the length byte L when they lie in the message, error otherwise, and never panics. (Panic when start+L wraps past 255; characterised exactly.)", "quantifier": "all data, positions", "why_tests_cant": "all", "anchors": ["nmea2k/raw_message.go: extractStringLZ"]}
{"id": "C45", "title": "ParsePacket terminates", "statement": "ParsePacket returns for every message.", "quantifier": "every PGN and every data", "why_tests_cant": "non-termination cannot be tested", "anchors": ["nmea2k/raw_message.go: ParsePacket"]}
{"id": "C46", "title": "ParsePacket never crashes", "statement": "No received message makes ParsePacket panic. (False. It panics exactly on PGN 130842 with a message id of 2 or more, on PGN 60928 with no or six bytes at the end of their buffer, and on length-prefixed strings that lead past byte 255.)", "quantifier": "every PGN, data", "why_tests_cant": "all messages", "anchors": ["nmea2k/raw_message.go: ParsePacket", "nmea2k/pgn_array.go: PgnList"]}
{"id": "C47", "title": "ParsePacket variant selection", "statement": "For a PGN with several definitions the index returned is one of that PGN's definitions whose '=' constraints hold on the message. (False: unmatched messages fall into the next PGN's definition; constraints of earlier fields are not rechecked; PGN 126720 always yields the first.)", "quantifier": "every message", "why_tests_cant": "all messages", "anchors": ["nmea2k/raw_message.go: ParsePacket"]}
{"id": "C48", "title": "Unknown PGNs", "statement": "A message with a PGN not in the table yields index 0 and a single field with its first min(8,len) bytes.", "quantifier": "every unknown PGN and data", "why_tests_cant": "all", "anchors": ["nmea2k/raw_message.go: ParsePacket"]}
{"id": "C49", "title": "ParsePacket output shape", "statement": "The result's header is the input message, and its data keys are exactly 0..n-1 for some n.", "quantifier": "every message for which it returns", "why_tests_cant": "all", "anchors": ["nmea2k/raw_message.go: ParsePacket"]}
{"id": "C50", "title": "ParsePacket decodes each field at its offset", "statement": "For a single-definition, non-repeating PGN and data covering the definition, entry k is field k decoded at bit offset sum of the earlier sizes.", "quantifier": "every such PGN and data", "why_tests_cant": "all data", "anchors": ["nmea2k/raw_message.go: ParsePacket"]}
{"id": "C51", "title": "Print is index-safe", "statement": "Print on a parsed message of a single-definition PGN never panics and lists each entry with the name of the field it was decoded from.", "quantifier": "every message", "why_tests_cant": "all", "anchors": ["nmea2k/parsed_message.go: Print", "nmea2k/raw_message.go: ParsePacket"]}
{"id": "C52", "title": "CanBoat import", "statement": "FromCanBoat assigns to each field index the JSON value under the field's name, independent of map order; PGNs with several definitions are rejected; malformed lines are rejected. (Last part false: they become PGN 0 messages.)", "quantifier": "every line and table", "why_tests_cant": "all inputs, map orders", "anchors": ["nmea2k/parsed_message.go: FromCanBoat"]}
{"id": "C53", "title": "Delta soundness", "statement": "Every value in a delta comes from a mapping whose parameter group has the message's PGN, whose conditions hold, and whose field index selects that data field (or a complete fieldset), and is non-nil with non-empty path.", "quantifier": "every mapping set, message, map order", "why_tests_cant": "all", "anchors": ["signalk/signalk.go: Delta"]}
{"id": "C54", "title": "Delta uses each field once", "statement": "No data field contributes more than one plain value to a delta.", "quantifier": "every mapping set, message, map order", "why_tests_cant": "all orders", "anchors": ["signalk/signalk.go: Delta"]}
{"id": "C55", "title": "Delta completeness", "statement": "If some non-nil field matches a parameter group whose conditions hold and is not consumed by a fieldset, the delta contains a value for it, from the first such mapping in file order.", "quantifier": "every mapping set, message, order", "why_tests_cant": "all", "anchors": ["signalk/signalk.go: Delta"]}
{"id": "C56", "title": "Delta independent of map order", "statement": "For mapping sets without fieldsets the multiset of values does not depend on map iteration order. (False in general with fieldsets sharing fields.)", "quantifier": "all iteration orders", "why_tests_cant": "n! orders", "anchors": ["signalk/signalk.go: Delta"]}
{"id": "C57", "title": "Delta error", "statement": "Delta returns an error iff there are no values; otherwise exactly one update with the message's PGN and source.", "quantifier": "every input", "why_tests_cant": "all", "anchors": ["signalk/signalk.go: Delta"]}
{"id": "C58", "title": "Conditions", "statement": "conditionsMatch is the conjunction of its conditions with string comparison. (False: an unknown operation accepts immediately; lt/gt compare text, not numbers.)", "quantifier": "every condition list and message", "why_tests_cant": "all", "anchors": ["signalk/signalk.go: conditionsMatch"]}
{"id": "C59", "title": "Repeating groups", "statement": "For a multiplier mapping, the k-th repetition's field is matched and its path is instantiated with the multiplier field of the same repetition.", "quantifier": "every repetition count and group geometry", "why_tests_cant": "unbounded repetitions", "anchors": ["signalk/signalk.go: Delta"]}
{"id": "C60", "title": "Delta never crashes", "statement": "No parsed message makes Delta panic with a well-formed mapping file. (False: multiplier on a PGN without repeating fields divides by zero; path shorter than 2.)", "quantifier": "every input", "why_tests_cant": "all", "anchors": ["signalk/signalk.go: Delta, toDotNotation"]}
{"id": "C61", "title": "Date-time fieldsets", "statement": "A datetime fieldset yields the RFC3339 text of the date and time; when the fields are absent or not times nothing is emitted. (False: non-time values emit an empty string once per field; west of UTC the date is a day early.)", "quantifier": "every date, time, zone", "why_tests_cant": "all", "anchors": ["signalk/signalk.go: fieldset.parse, hasAll, Delta"]}
{"id": "C62", "title": "merge", "statement": "merge contains exactly the keys of both maps, right value winning.", "quantifier": "all maps", "why_tests_cant": "all", "anchors": ["signalk/signalk.go: merge"]}
{"id": "C63", "title": "Hub delivery", "statement": "Every registered client receives, in order and without gaps, the messages broadcast since its registration, up to the point where it is dropped; it is dropped exactly when 256 messages are pending at a broadcast; afterwards its channel is closed and it gets nothing more.", "quantifier": "every schedule of register, broadcast, client reads", "why_tests_cant": "all schedules", "anchors": ["main/websocket_server.go: hub.run, writePump"]}
{"id": "C64", "title": "Hub never blocks or crashes", "statement": "With fresh clients and no unregister request the hub never sends on or closes a closed channel, and every broadcast completes without waiting for clients.", "quantifier": "every schedule", "why_tests_cant": "all schedules", "anchors": ["main/websocket_server.go: hub.run"]}
{"id": "C65", "title": "Hub unregister", "statement": "Unregistering a client is safe at any time. (False: after the client was dropped it closes a closed channel.)", "quantifier": "every schedule", "why_tests_cant": "schedules", "anchors": ["main/websocket_server.go: hub.run"]}
{"id": "C66", "title": "Client isolation", "statement": "What one client receives does not depend on the speed or presence of other clients.", "quantifier": "every schedule", "why_tests_cant": "all schedules", "anchors": ["main/websocket_server.go: hub.run"]}
{"id": "C67", "title": "Statistics", "statement": "After any sequence of messages the statistics map holds for each PGN the number of messages seen, and the display list is sorted, without duplicates, with exactly the PGNs seen.", "quantifier": "every history", "why_tests_cant": "unbounded histories", "anchors": ["main/argo.go: main (print loop)"]}
{"id": "C68", "title": "Display filter", "statement": "A message is logged iff it passes the PGN, source and destination options (0/255/255 meaning any) and statistics mode is off.", "quantifier": "all options and messages", "why_tests_cant": "all", "anchors": ["main/argo.go: main", "main/flags.go"]}
{"id": "C69", "title": "Pipeline order", "statement": "Messages from each interface reach the consumer in the order read, none lost or duplicated, for any interleaving of interfaces.", "quantifier": "every schedule", "why_tests_cant": "schedules", "anchors": ["main/argo.go: main, processInterface"]}
{"id": "C70", "title": "Message index", "statement": "GET messages lists each table entry once in order; type filters s,f,i,o partition the listing; type label agrees with the filter; category filter is case-insensitive equality.", "quantifier": "every table, query", "why_tests_cant": "all", "anchors": ["main/api_server.go: MessagesIndex, GetPGNSummary"]}
{"id": "C71", "title": "Message details", "statement": "GET messages/{key}: keys below the table size select by index, larger by PGN (first definition, or entry 0). (Negative keys panic.)", "quantifier": "every key", "why_tests_cant": "all keys", "anchors": ["main/api_server.go: MessageDetailsHandler"]}
{"id": "C72", "title": "Control requests complete", "statement": "A POST to control/send is answered. (False: nobody receives from the command channel; the handler never returns.)", "quantifier": "every schedule", "why_tests_cant": "liveness over all schedules", "anchors": ["main/api_server.go: SendMessageHandler", "main/argo.go: main"]}
{"id": "C73", "title": "Configuration defaults", "statement": "ReadConfig returns the file's values with every unset value replaced by its default; explicitly set values are kept. (False for values equal to the zero value, e.g. EnableWebsockets=false, UseTls=false.)", "quantifier": "every configuration", "why_tests_cant": "all", "anchors": ["config/config.go: ReadConfig"]}
{"id": "C74", "title": "UUID parts", "statement": "When the UUID has exactly five dash-separated parts they are exposed as Uuid0..4 and joining them gives the UUID back; otherwise they are empty.", "quantifier": "every string", "why_tests_cant": "all strings", "anchors": ["config/config.go: ReadConfig"]}
{"id": "C75", "title": "Admin update", "statement": "POST /admin changes the running configuration to the posted values. (False: only values that were unset change.)", "quantifier": "every configuration pair", "why_tests_cant": "all", "anchors": ["main/ui_server.go: adminHandler"]}
{"id": "C76", "title": "Configuration save is crash-safe", "statement": "If the process dies at any point of an admin save, the previous configuration is still complete in argo.conf or argo.conf~. Repeating after a crash can lose it.", "quantifier": "every crash point and partial write", "why_tests_cant": "crash points", "anchors": ["main/ui_server.go: adminHandler", "config/config.go: WriteConfig"]}
{"id": "C77", "title": "Installed app listing", "statement": "getInstalledPackages lists exactly the directories whose package.json has the webapp keyword, scoped ones included. (False: one directory without package.json empties the list.)", "quantifier": "every directory tree", "why_tests_cant": "all trees", "anchors": ["main/packages.go: getInstalledPackages, contains"]}
{"id": "C78", "title": "installPackage handshake", "statement": "The scanner goroutine always reaches scanning and installPackage always gets past the handshake in every schedule; the goroutine itself never terminates afterwards (leak).", "quantifier": "every schedule", "why_tests_cant": "schedules", "anchors": ["main/packages.go: installPackage"]}
{"id": "C79", "title": "JSON of a parsed message", "statement": "DataMap.MarshalJSON keeps one key per field index: distinct indices give distinct decimal keys and values are unchanged. The text JSON returns for a parsed message is one JSON text (RFC 8259) with the header, the index and, under each index in decimal, its value; it is returned for every decoded message received in the years 0 to 9999.", "quantifier": "every data map", "why_tests_cant": "all maps", "anchors": ["nmea2k/parsed_message.go: MarshalJSON, JSON, ParsedMessage", "nmea2k/raw_message.go: MessageHeader"]}
{"id": "C80", "title": "OpenChannel", "statement": "OpenChannel sends the bit-rate command, the open command and one address claim from the requested address, and returns an open port with that address; when one of the two commands fails it returns that error and no port and sends nothing more.", "quantifier": "every address and every outcome of every port write", "why_tests_cant": "ranges over all port failure scripts and addresses", "anchors": ["canusb/canport.go: OpenChannel, AddressClaim"]}
{"id": "C81", "title": "What the consumer emits", "statement": "For every sequence of received messages: with WebSockets enabled one statistics broadcast per message with the counts up to and including it, and with MQTT/WebSockets enabled the deltas of the messages that have one, in order; the process crashes exactly when Delta, or Print of a displayed message, panics on one of them.", "quantifier": "every message history, option and configuration", "why_tests_cant": "unbounded histories and all configurations", "anchors": ["main/argo.go: main (consumer goroutine)"]}
{"id": "C82", "title": "End to end delivery", "statement": "In every schedule of interfaces, consumer, hubs and clients, a Signal K client that registered when k deltas had been broadcast has received an initial part of the sequence of deltas of the consumed messages from number k on, in order and without gaps; if it has kept up and the consumer is idle it has received all of them.", "quantifier": "every schedule", "why_tests_cant": "all interleavings of all goroutines", "anchors": ["main/argo.go: main, processInterface", "main/websocket_server.go: hub.run, writePump"]}
{"id": "C83", "title": "Save and restart", "statement": "A configuration read from a file, saved by WriteConfig and read again is unchanged in every setting, the UUID parts and the interfaces. After an admin POST the running configuration equals what a restart would read. (The last part is false for the UUID parts.)", "quantifier": "every configuration file", "why_tests_cant": "all files", "anchors": ["config/config.go: ReadConfig, WriteConfig", "main/ui_server.go: adminHandler"]}
{"id": "C84", "title": "installPackage returns", "statement": "Whatever yarn prints, installPackage returns once yarn can be started and is done, so the request is answered. (False: a line longer than bufio.Scanner accepts stops the reader, and yarn then blocks on a full pipe.)", "quantifier": "every schedule and every output of yarn", "why_tests_cant": "schedules and outputs", "anchors": ["main/packages.go: installPackage", "main/ui_server.go: appInstallHandlerFactory"]}
{"id": "C85", "title": "CANUSB fast-packet Send under write errors", "statement": "Send never panics. For 9..223 bytes it writes one text per frame in order and stops at the first failing write, returning that write's result (otherwise the sum of the counts); more than 223 bytes are refused with an error and nothing is written; consecutive fast packets carry consecutive group numbers modulo 8.", "quantifier": "all messages, all port states, all sequences of write results, all sequences of Send calls", "why_tests_cant": "write failures at every position, for every payload length, and unbounded sequences of Sends", "anchors": ["canusb/canport.go:Send", "canusb/canport.go:Write"]}
{"id": "C86", "title": "HTTP routing", "statement": "In every order in which the server goroutines register their handlers, and for every request path and every set of installed apps, each API address, page and WebSocket endpoint reaches its own handler, the links the server hands out (message details, installed apps, freshly installed apps) lead to what they name, and only files of installed webapps are served below /apps/. (False: every @Details link is a 404; a webapp named like a prefix of 'install' disables installation; a webapp's name exposes every package it is a prefix of; during startup API requests reach the WebSocket handler; without WebSockets nothing is served.)", "quantifier": "every clean request path, every list of installed and added apps, every registration order", "why_tests_cant": "paths, app names and registration orders are unbounded or scheduler-dependent", "anchors": ["main/api_server.go: ApiServer, GetPGNSummary", "main/ui_server.go: UiServer, addApps, appInstallHandlerFactory, appsHandler", "main/websocket_server.go: WebSocketServer, serveWs, handleStats", "main/packages.go: getPathForPackage"]}
{"id": "C87", "title": "Stalled WebSocket clients", "statement": "A WebSocket client whose connection stops accepting writes never delays the hub or any other client: the hub holds at most 256 undelivered updates for it and drops it on the next one; until then it stays registered.", "quantifier": "every schedule of the hub, every set of clients, every broadcast sequence", "why_tests_cant": "needs every interleaving of the hub, writers and readers, with an unbounded number of broadcasts", "anchors": ["main/websocket_server.go: hub.run, connection.writePump, serveWs"]}
{"id": "C88", "title": "Interface start-up", "statement": "Starting an interface either starts reading it, after the set-up commands for its type were sent on an opened serial port, or ends the process with a message; exactly the PGNs of the table with more than 8 bytes (and those registered before) are treated as fast packets afterwards, whichever interfaces were started before and however often.", "quantifier": "every interface kind, device, port behaviour and table; every registry state", "why_tests_cant": "every combination of device, port state and write failure", "anchors": ["main/argo.go: processInterface", "canusb/canport.go: OpenChannel", "canusb/canframe.go: AddFastPacket", "actisense/actisense.go: OpenChannel"]}
{"id": "C89", "title": "File playback", "statement": "Playing a CanBoat JSON file hands over, in file order, the message FromCanBoat makes of each line (a trailing carriage return removed), one per line, except that a line whose PGN has several definitions is refused with a warning, whatever the content of the file, up to the first line of 65536 bytes or more, at which playback stops.", "quantifier": "every file content (every byte string), every table with at least one definition", "why_tests_cant": "unbounded file contents", "anchors": ["main/argo.go: processInterface (file)", "nmea2k/parsed_message.go: FromCanBoat"]}
{"id": "C90", "title": "NGT-1 bytes to handed-over messages", "statement": "Whatever bytes arrive from an NGT-1, every message handed to the processing loop is the decoding of one checksummed message on the wire, in wire order, each exactly once, and the process does not die. (False for the last part: a message too short to carry a PGN, or a definition's group past the end of the data, kills the process.)", "quantifier": "every byte stream, every chunking and read error, every table", "why_tests_cant": "unbounded byte streams, chunkings and error positions", "anchors": ["main/argo.go: processInterface (actisense)", "actisense/actisense.go: Read", "nmea2k/raw_message.go: ParsePacket"]}
{"id": "C91", "title": "CANUSB text to handed-over messages", "statement": "Whatever text arrives from a CANUSB, every message handed over is the decoding of one frame or one complete fast packet on the wire, with its addresses, in wire order; the frames of one fast packet sent in order are handed over as one message with all its bytes. (False: a continuation frame of a fast packet whose beginning was never received is handed over as a message of its own.)", "quantifier": "every sequence of received frames, every table, every registry", "why_tests_cant": "unbounded streams and interleavings of fast packets", "anchors": ["main/argo.go: processInterface (canusb)", "canusb/canport.go: Read, ParseFrame", "nmea2k/raw_message.go: ParsePacket"]}
{"id": "C92", "title": "The shipped program never panics while processing", "statement": "With the shipped PGN table and SignalK mapping, for messages the interfaces made of received data, the processing loop and the client hubs never panic, whatever display options and outputs are chosen, whatever order Go iterates maps in and however interfaces, loop, hubs and clients are scheduled; and a message an interface is handing over can always be taken without new input or any client's cooperation.", "quantifier": "every set of options, every schedule of interfaces, loop, hubs and clients, every map iteration order, every message decoded from the wire or imported from a file", "why_tests_cant": "all schedules, all messages and all iteration orders", "anchors": ["main/argo.go: main (loop)", "nmea2k/raw_message.go: ParsePacket", "nmea2k/parsed_message.go: Print", "signalk/signalk.go: Delta", "main/websocket_server.go: run"]}
{"id": "C93", "title": "From the wire to the clients", "statement": "Every delta a WebSocket client receives was computed from one message that an interface received (a checksummed NGT-1 frame, a complete CANUSB frame or fast packet, a file line) and carries its PGN and source; and once everything is read and processed, a client connected from the beginning that kept up has received exactly the deltas of all messages, those of each interface in the order received. (False: a lone continuation frame of a fast packet counts as a message, and packets can be mixed between adapters.)", "quantifier": "every number of interfaces and contents received, every schedule, every client", "why_tests_cant": "unbounded inputs and schedules across four components", "anchors": ["main/argo.go: main, processInterface", "main/websocket_server.go: run, serveWs", "actisense/actisense.go: Read", "canusb/canport.go: Read", "signalk/signalk.go: Delta"]}
{"id": "C94", "title": "A reading client always catches up", "statement": "In every reachable state, if a client is connected and an interface is handing over a message, then the program's own steps and that client's reading suffice for the message to be processed and for the client to receive every delta since it connected, including that message's, without being disconnected, whatever other clients do or do not do. The same holds of a client of the statistics, which receives one statistics message for each message taken since it connected, the last one counting every message including the pending one.", "quantifier": "every reachable state of every schedule, every client, every pending message", "why_tests_cant": "liveness from every reachable state of an infinite-state concurrent system", "anchors": ["main/argo.go: main (loop)", "main/websocket_server.go: run, serveWs"]}
{"id": "C95", "title": "Displaying a message played back from a file", "statement": "The text printed for a message played back from a CanBoat file shows every value that was in the file line for a known field. (False: fields numbered at or above the number of values are not shown.)", "quantifier": "every file line, every JSON decoding", "why_tests_cant": "all subsets of fields over all definitions of the table", "anchors": ["nmea2k/parsed_message.go: Print, FromCanBoat"]}
{"id": "C96", "title": "Several CANUSB adapters do not disturb each other", "statement": "With several CANUSB adapters connected, each interface returns exactly the messages it would return if it were the only one. (False: partially received fast packets are shared by all interfaces, so packets of the same PGN, source and group on two buses are mixed into messages sent on neither.)", "quantifier": "every number of adapters, everything they receive, every interleaving", "why_tests_cant": "all interleavings of all streams on all adapters", "anchors": ["canusb/canframe.go: partial_messages", "canusb/canport.go: frameReceived, Read", "main/argo.go: processInterface (canusb)"]}
{"id": "C97", "title": "Statistics clients receive true counts", "statement": "Every statistics message a WebSocket client receives says exactly how often each PGN occurred among all messages taken up to some moment: the n-th one counts those counted before it registered and n more. A client that has kept up has received one statistics message per message taken since it registered, the last one counting everything.", "quantifier": "every schedule of interfaces, consumer, hubs and clients, every position in what a client receives", "why_tests_cant": "all interleavings of unbounded histories", "anchors": ["main/argo.go: main (loop)", "main/websocket_server.go: run, serveWs"]}
{"id": "C98", "title": "Only named inputs end the process", "statement": "Whatever any number of interfaces of any kind receive, an interface ends the process only if it receives: an NGT-1 frame with correct checksum whose length field exceeds the frame, a CANUSB line that stops within the identifier or before the data a fast packet needs, or a message of one of eight PGNs whose data is too short for its definition. The first two crash wherever they occur in the input. If no interface receives any of these and the settings are not changed while it runs (C110), the process does not panic in any schedule (of executions without data races, C111). Files never end it.", "quantifier": "every input (bytes, read errors, empty reads, interleavings, file contents) of every number of interfaces, every schedule", "why_tests_cant": "unbounded inputs and schedules", "anchors": ["actisense/actisense.go: Read", "canusb/canport.go: Read", "canusb/canframe.go: ParseFrame", "nmea2k/raw_message.go: ParsePacket", "main/argo.go: processInterface"]}
{"id": "C99", "title": "Exact contents of what clients receive", "statement": "Whatever any number of interfaces receive, every delta a client receives holds the PGN and source of a message made of something received and exactly the values the shipped mapping file reports of it: every data field contributes its value under the path of the first mapping that applies to it, a system time message the time of its date and time fields, nothing else. A client that was there from the start and has kept up has received the deltas of all messages. For an NGT-1, the delta of a received frame holds for each field the value of its bits under the path the mapping file has for it, and no other field value.", "quantifier": "every input of every number of interfaces, every schedule, every client and delta, every map iteration order", "why_tests_cant": "unbounded inputs, schedules and iteration orders, composition of all stages", "anchors": ["signalk/signalk.go: Delta", "map.xml", "main/argo.go: main (loop)", "main/websocket_server.go: run", "nmea2k/raw_message.go: ParsePacket", "actisense/actisense.go: Read"]}
{"id": "C100", "title": "Coded fields are shown by name", "statement": "In every decodable message of a PGN with one definition, a field for which the library has a table of names is shown as the name of its number, or as the number if the table has none; a manufacturer code is shown as the company. Tables only have numbers the field can hold, and what is shown determines the number that was sent.", "quantifier": "all messages, all definitions and fields, all numbers", "why_tests_cant": "thousands of table entries times all definitions and messages; tests sample", "anchors": ["nmea2k/lookups.go", "nmea2k/pgn_array.go", "nmea2k/raw_message.go: extractLookupField, extractManufacturer"]}
{"id": "C101", "title": "Address claims identify the device", "statement": "Every ISO address claim (PGN 60928) of eight bytes or more is decoded into ten values: unique number, manufacturer name, instances, the name of the device function of its class, device class name, system instance, industry name and arbitrary-address flag, each from its own bits.", "quantifier": "all address claims of at least eight bytes", "why_tests_cant": "2^64 names, and the function's name depends on another field decoded later", "anchors": ["nmea2k/raw_message.go: ParsePacket, extractLookupSubfield", "nmea2k/lookups.go: lookupDeviceFunction", "nmea2k/pgn_array.go"]}
{"id": "C102", "title": "Every entry of the mapping file has an effect", "statement": "For every parameter group of the shipped mapping file there is a message of its PGN that can be received and decoded such that the delta made of it reports the group's field (or the fieldset's text) under the group's path.", "quantifier": "all groups of the mapping file; for dead ones, all messages of the PGN", "why_tests_cant": "that an entry never applies is a statement about all messages", "anchors": ["map.xml", "signalk/signalk.go: Delta, conditionsMatch", "nmea2k/raw_message.go: ParsePacket", "nmea2k/lookups.go"]}
{"id": "C103", "title": "The text of a message identifies it", "statement": "The log line of a raw message determines its receipt time as shown, priority, source, destination, PGN, length and data; the text of a CAN frame determines everything in the frame. Two different messages never look the same in the log. The line is, in this order: time, priority, source, destination, PGN, length and the bytes in hexadecimal.", "quantifier": "all pairs of messages and frames", "why_tests_cant": "injectivity is a statement about all pairs", "anchors": ["can/can.go: RawMessage.Print", "canusb/canframe.go: CanFrame.String"]}
{"id": "C104", "title": "Clients receive valid JSON with exactly the delta", "statement": "Whatever the interfaces receive and in whatever order things happen, every delta a WebSocket client receives is a JSON text (RFC 8259) with exactly one value: the context, one update with the PGN, the source, the time in RFC 3339 and the values reported of the message under their paths, whatever characters and bytes the texts of the message contain. The delta of a message decoded from the bus can always be encoded.", "quantifier": "every input of every interface, every schedule, every message, every byte string in a text", "why_tests_cant": "escaping and dates over all byte strings and instants, all schedules", "anchors": ["signalk/signalk.go: Delta, delta, update, source, value", "main/argo.go: main (loop)"]}
{"id": "C105", "title": "Replies and statistics are valid JSON with the intended contents", "statement": "Every statistics message a client receives, the message index for every query, the details of a message in JSON, the reply of /admin/uuid and the reply to an installation are each one JSON text (RFC 8259) whose value is: the counter of every PGN seen, no other; the entries asked for, in order; the whole definition with every entry of its lookup tables once; the five groups of the UUID; the result of the installation. (False: the reply to an installation is put together without escaping, so an error or a name with a quotation mark gives bytes that are not JSON or have other members.)", "quantifier": "every history of messages and schedule, every query, every key, every order of walking the maps, every UUID, every error text and package name", "why_tests_cant": "map order, schedules and all texts", "anchors": ["main/argo.go: main (loop)", "main/api_server.go: MessagesIndex, MessageDetailsHandler, GetPGNSummary", "main/ui_server.go: uuidHandler, appInstallHandlerFactory", "nmea2k/pgn_array.go: PgnLookup.MarshalJSON"]}
{"id": "C106", "title": "Meaning of the command line", "statement": "A command line is accepted exactly if its words are options typed in one of the usual ways (one or two dashes, the value after = or as the next word, switches with an optional =value) up to the first word that is not an option or a --, each known and each value of its kind; then every option has the last value given or its default, and the log level is put in capitals.", "quantifier": "every list of words", "why_tests_cant": "all word lists", "anchors": ["main/flags.go: GetCommandLineOptions"]}
{"id": "C107", "title": "Start-up", "statement": "-help and -explain only print. Otherwise the process ends exactly if the configuration, the mapping file or (when enabled) the broker fails, with the first that fails, before any server or interface is started; else every configured interface is started exactly once after the consumer, the servers run on the configured port, the broker is used exactly if enabled and the requested level (command line, else file) decides what is logged. (False: the server's UseTls and ListenOn are ignored, the broker is always contacted over TLS, the level none in lower case in the file logs everything, and what the admin page saves goes to argo.conf even if another file was read.)", "quantifier": "every configuration file, every option, every outcome of the environment, every order of the interfaces", "why_tests_cant": "all files and environments", "anchors": ["main/argo.go: main", "main/flags.go: GetCommandLineOptions", "config/config.go: ReadConfig, WriteConfig"]}
{"id": "C108", "title": "-explain prints the whole table as JSON", "statement": "The -explain output is one JSON text: an array of every definition of the table in order, each complete with its fields, resolutions and every entry of its lookup tables once, whatever the order in which maps are walked.", "quantifier": "every map order", "why_tests_cant": "all orders over the whole table", "anchors": ["main/argo.go: main", "nmea2k/pgn_array.go: PgnLookup.MarshalJSON"]}
{"id": "C109", "title": "Details of a message in XML", "statement": "The details of a message asked for in XML are one XML element with the whole definition: description, category, PGN, sizes and every field with its name, size, resolution, sign, units, offset and the entries of its lookup table, whatever characters the texts contain. (False: tables of names are left out of every reply, and a definition with a table of tables, PGN 60928, gives an empty reply that is no XML.)", "quantifier": "every key, every definition, every text of a factor", "why_tests_cant": "all keys and all characters of texts", "anchors": ["main/api_server.go: MessageDetailsHandler", "nmea2k/pgn_array.go: Pgn, Field, PgnLookup.MarshalXML"]}
{"id": "C110", "title": "Publishing to the broker while settings change", "statement": "If the broker is enabled in the configuration file, exactly the deltas of the messages are published, in order and under the configured topic, whatever is posted to /admin in between; if it is not, nothing is published. Changing settings never ends the process. (False: if the broker is not enabled in the file, the process ends exactly when a POST enables it and a message with a delta follows, since there is no client.)", "quantifier": "every configuration file, every sequence of POSTs and messages", "why_tests_cant": "all histories", "anchors": ["main/argo.go: main (loop, MQTT client)", "main/ui_server.go: adminHandler"]}
{"id": "C111", "title": "Freedom from data races", "statement": "The goroutines of the process never access shared data without ordering them (Go memory model): settings, the map of interfaces, counters, mapping, client lists, routes, and the registry and partial messages of CANUSB adapters. (False: with two CANUSB adapters every execution in which both start has a data race on the registry; a POST to /admin that fills a setting the processing loop has used, and an installation or such a POST while another connection is served, are data races. Everything no request writes, with at most one CANUSB adapter, is free of races.)", "quantifier": "every configuration of interfaces, every set of requests and connections, every interleaving", "why_tests_cant": "all schedules; a race shows only by chance", "anchors": ["main/argo.go: main, processInterface", "main/ui_server.go: adminHandler, appInstallHandlerFactory, UiServer", "main/websocket_server.go: hub.run, serveWs", "canusb/canframe.go: AddFastPacket, partial_messages"]}
{"id": "C112", "title": "Requests reach only files below the served directories", "statement": "Whatever path is requested, a file answered for an /apps path is the one named in the path below node_modules, and one answered for /assets the one below the asset directory: no request leaves these directories. Every request is answered after at most two redirects; the pages, API, streams, files of installed apps and links of apps are found at their addresses with the routers' own path cleaning.", "quantifier": "every request path, every order of registration, every set of installed apps", "why_tests_cant": "all byte strings as paths, with all mixtures of dots and slashes", "anchors": ["main/ui_server.go: UiServer, appInstallHandlerFactory", "main/api_server.go: ApiServer", "main/packages.go: getPathForPackage, getInstalledPackages"]}
{"id": "C113", "title": "The page of apps and installing an app", "statement": "The page of apps shows every package the registry replies with, in order, with a link and the installed version exactly for those installed; pressing Install runs yarn for exactly that package and version, and afterwards the row shows the version and the link the page will have. (False: the reply itself can mark a package; one directory without package.json unmarks all; two requests can run the same command and a name with a leading dash is an option; a failed installation is shown as installed with a link to undefined, or nothing is shown.)", "quantifier": "every reply of the registry, every tree of node_modules, every name and version, every error of yarn", "why_tests_cant": "unbounded trees, replies and texts", "anchors": ["main/ui_server.go: appsHandler, appInstallHandlerFactory", "main/packages.go: installPackage, getPathForPackage", "templates/apps.gtpl", "assets/js/site.js: handleAppInstall"]}
{"id": "C114", "title": "The settings page", "statement": "Submitting the settings page as shown changes nothing; a value entered becomes the setting; a UUID entered or generated is stored and shown after the next start; settings without an input and interfaces are never changed. (False: without a UUID an unchanged page stores four dashes as UUID, which nothing posted later changes; inputs of settings that have a value, cleared inputs and unchecked boxes have no effect.)", "quantifier": "every configuration, every content of the form, every history of posts, every browser that keeps empty texts and zero", "why_tests_cant": "all configurations, forms and histories", "anchors": ["templates/index.gtpl", "assets/js/site.js: submitForm, getUUID", "main/ui_server.go: adminHandler, indexHandler, uuidHandler", "config/config.go: ReadConfig, WriteConfig"]}
{"id": "C115", "title": "The statistics table of the front page", "statement": "The table of the front page has one row for each PGN of the messages taken up to the moment of the last statistics message received, with its count, and no other row; rows keep their places; a browser that has kept up shows the counts of all messages. A click on a row opens the description of the first definition of that PGN. (False: for a PGN without a definition it opens that of PGN 0.)", "quantifier": "every schedule of the program, every order in which the browser walks the members, every PGN, every set of installed apps and order of registration", "why_tests_cant": "all schedules and histories, all PGNs", "anchors": ["assets/js/site.js: ws.onmessage, showPgnData", "main/argo.go: consumer goroutine", "main/api_server.go: MessageDetailsHandler"]}
{"id": "C116", "title": "Write of a CANUSB port", "statement": "Write sends a buffer that describes a message of at most eight bytes as one frame, received as that message from the port's address; it refuses longer ones and writes nothing; it panics exactly on buffers of less than six bytes or that announce 250 bytes or more than there are in memory. As an io.Writer it leaves the buffer as it is and returns the number of its bytes. (False: it puts the destination into the buffer, and the number is that of the characters of the line.)", "quantifier": "every buffer and what is behind it in memory, every address, every behaviour of the serial port", "why_tests_cant": "all buffers, capacities and port results", "anchors": ["canusb/canport.go: (*CanPort).Write"]}
{"id": "C117", "title": "Values of messages whose PGN has several definitions", "statement": "The entries of a decoded message are the fields of the definition it is returned as, all of them in order, repeating groups over and over, each decoded from the bits at its place by that field's type, whatever definitions were tried before. (False: the industry code of some messages of PGN 130816 and one entry of PGN 130820 are decoded as the field of a definition tried before.)", "quantifier": "every message, every PGN but 60928, every environment of names", "why_tests_cant": "all messages, all PGNs of the table and every path through their definitions", "anchors": ["nmea2k/raw_message.go: ParsePacket", "nmea2k/pgn_array.go: PgnList"]}
{"id": "C118", "title": "From the bits of any message to the JSON of the clients", "statement": "Whatever messages arrive on the bus, of any PGN, any length and with any number of repetitions: the delta a client receives for a message holds, as JSON, its PGN, its source and exactly one value for each field the message reaches that has one and that the mapping file names: the value of its bits, under the path of the first group that names it, with the instance and the number of the repetition from the same message. Nothing else is reported of fields. (False: an empty message is reported as zeros, and one byte of a message that begins with a two-byte voltage as the voltage.)", "quantifier": "every message, every PGN, every schedule of the program, every set of interfaces", "why_tests_cant": "all messages and repetitions, all schedules", "anchors": ["nmea2k/raw_message.go: ParsePacket", "signalk/signalk.go: Delta", "map.xml", "main/argo.go", "main/websocket_hub.go"]}
{"id": "C119", "title": "The pages are what the templates say, whatever the data", "statement": "Whatever the settings are and whatever the package registry replies, a browser reads the pages with the tags, attributes and texts of the templates: no setting and no package can add an element, an attribute or a script. Every setting appears unchanged in the one input with its id (a NUL, which HTML cannot hold, as U+FFFD), every box is checked exactly if its setting is on; every package has one row with its texts. No link has a protocol other than http, https and mailto; ordinary addresses are unchanged.", "quantifier": "every configuration, every reply of the registry, every byte of every text", "why_tests_cant": "all texts, of any length and with any characters, in every place of the pages", "anchors": ["templates/layout.gtpl", "templates/index.gtpl", "templates/apps.gtpl", "main/ui_server.go: indexHandler, appsHandler"]}
{"id": "C120", "title": "What the script of the pages inserts", "statement": "The rows of the statistics and the names of fields the script inserts are read by the browser as they are, for all numbers and for all fields of all definitions. The link of an installed app leads to the path the server wrote, and after an installation the cell holds a link with the name of the app. (False: the name is inserted as HTML, so a package name can run a script; a directory name with a percent escape is decoded.)", "quantifier": "every PGN and count, every field of the table, every package name and location", "why_tests_cant": "all names and numbers", "anchors": ["assets/js/site.js:46-76, 187-203", "templates/apps.gtpl", "main/ui_server.go: appsHandler"]}
{"id": "C121", "title": "The number a client reads is the number on the bus", "statement": "Every number in a delta that was decoded from the bus is, as the decimal number a client reads, the one on the bus times the factor of its field: exactly for integers, temperatures and pressures, within 2^-50 of it for everything with a factor and for positions of 8 bytes, within 2^-22 for positions of 4 bytes; for fields of up to 48 bits the number on the bus can be recovered from the text. Angles are degrees of the true angle within 2^-49. It holds for everything any client receives, in any schedule, and when a client keeps up nothing is missing.", "quantifier": "every message of every PGN, every value of every field, every schedule, every client", "why_tests_cant": "all bit patterns of all fields, through two roundings and the decimal text", "anchors": ["nmea2k/raw_message.go: extractNumber, extractLatLon, extractTemperature, extractPressure", "nmea2k/pgn_array.go: RES_DEGREES, RES_ROTATION, Field.Resolution", "signalk/signalk.go: Delta", "main/argo.go: json.Marshal of deltas"]}
{"id": "C122", "title": "Positions at the resolution of the bus", "statement": "Two different positions on the bus are reported differently, so a client sees a position at the resolution it has on the bus (1e-7 degree, 1 cm). (False of positions of 4 bytes, which are computed in single precision: beyond 107 degrees, longitudes up to 126 steps apart, 1.4 m, are reported with the same bytes. What holds is a relative error of 2^-22. Positions of 8 bytes are within 2^-50.)", "quantifier": "every position of 4 or 8 bytes", "why_tests_cant": "all 2^32 and 2^64 positions", "anchors": ["nmea2k/raw_message.go:216-251 extractLatLon", "signalk/signalk.go: Delta"]}
{"id": "C123", "title": "The time a client reads is the time on the bus", "statement": "The delta a client receives for a system time message (PGN 126992) has exactly one value under system.currentTime: the RFC 3339 text of the date and the time in the message, to the second; a message without a date or without a time has none. (False: from 8 February 2106 on a time 136 years earlier is reported; on a computer that is not set to UTC the text denotes another instant, and west of UTC it shows the date of the day before.)", "quantifier": "every system time message, every date and time, every zone, every schedule of the program, every set of interfaces", "why_tests_cant": "all dates and times (48 bits), all zones, all schedules", "anchors": ["nmea2k/raw_message.go: extractDate, extractTime", "signalk/signalk.go: fieldset.parse, Delta", "map.xml: system/currentTime", "main/argo.go: main (loop)"]}
{"id": "C124", "title": "The line of the log says what was in the message", "statement": "For every message the program decodes, Print gives a text, and whoever reads that text (knowing only its layout: time of receipt, priority, source, destination, PGN, description, then numbered 'name = value' entries separated by semicolons) finds the time of receipt to the millisecond, the header, the description of the definition used and, in their order, the number, field name and value of every entry that has a value (in verbose mode of every entry); the text is one line. (False: a text on the bus with a semicolon can pretend to be another entry, one with a line feed splits the line; numbers are printed with six digits after the point of a binary approximation, so that 296.15 K is shown as 296.149994 and different positions have the same line.)", "quantifier": "every message on the bus, every time of receipt, every zone, verbose or not", "why_tests_cant": "all contents of all 250 definitions, all texts and numbers a device can send", "anchors": ["nmea2k/parsed_message.go: Print", "nmea2k/raw_message.go: extractString, extractNumber, extractLatLon, extractTemperature, extractDate, extractTime", "nmea2k/pgn_array.go: PgnList"]}
{"id": "C125", "title": "A played back line is handed over as it was recorded", "statement": "When a file of CanBoat's JSON lines is played back, the message made of a line has the priority, source, destination and PGN that the line has under prio, src, dst and pgn, refers to the definition of that PGN, and has under each field number exactly the value that the line has under that field's name; a line that does not say these things is not handed over. (False: lines that are not JSON are handed over as messages with PGN 0 from device 0; a number that does not fit its type, or is written with a point, is replaced by 0; members are found under their names in any case.)", "quantifier": "every sequence of bytes as a line, every Go version's nesting limit, every order of Go's map iteration, every conversion of field values", "why_tests_cant": "all texts, valid JSON or not, with all white space, escapes, duplicate members and numbers", "anchors": ["nmea2k/parsed_message.go: FromCanBoat, CanBoatMessage", "nmea2k/pgn_array.go: First, Last, PgnList", "main/argo.go: processInterface"]}
{"id": "C126", "title": "A played back message has the time it was recorded at", "statement": "The message made of a line of a recorded file has the instant of the line's timestamp as its time, and the log shows it. (False: only timestamps of the form 2006-01-02T15:04:05.999 without a zone are understood; those CanBoat writes, with a Z at the end or with a dash instead of the T, silently give the year 1.)", "quantifier": "every timestamp text, Go before and since 1.17", "why_tests_cant": "all dates of 10000 years, all times of day with up to nine digits, all texts that are not timestamps", "anchors": ["nmea2k/parsed_message.go: FromCanBoat, Print"]}
{"id": "C127", "title": "A WebSocket client reads every message whole, in order, as text", "statement": "The bytes written to a WebSocket connection are, wherever they are cut off (slow network, failed write, closed connection), an initial part of a stream of well-formed RFC 6455 frames that a client accepts; the text messages a client reads are an initial part of the messages broadcast since it was registered, each whole and in order, with nothing between them but pings and nothing after them but a close; a client that has read the close has read everything that was accepted for it before it was dropped. With the deltas of the whole program, every text is valid UTF-8 and the JSON of a delta.", "quantifier": "every sequence of messages of every length, ticks of the ping timer and closes, every point where a write fails, every point where the received bytes end, every schedule of hub and clients", "why_tests_cant": "frames have three header layouts chosen by length, and the cut can be at any byte; the interleaving of hub, pumps and timer is unbounded", "anchors": ["main/websocket_server.go: write, writePump, run, serveWs, handleStats"]}
{"id": "C128", "title": "Whoever reads the log finds the messages that pass the options", "statement": "Whoever reads the lines of the standard error marked INFO (time, mark, number, text) finds exactly the messages that the loop has taken and that pass the options of the command line, in that order and one line each, whatever the other goroutines log in between; and each line says when its message was received, its header and its values. Secrets of the configuration are not written there.", "quantifier": "every schedule of interfaces, loop, hubs and servers, every message history, every interleaving of records of other goroutines, every posted configuration", "why_tests_cant": "the interleaving with records of other goroutines is unbounded, and whether a line can be imitated depends on every text that can reach the log", "anchors": ["main/argo.go: logFormat, main (loop)", "can/can.go: Print", "nmea2k/parsed_message.go: Print", "main/ui_server.go: adminHandler"]}
{"id": "C129", "title": "Replies are labelled with what they are", "statement": "The Content-Type of each reply names its format: pages are labelled as HTML whatever the settings and packages are, so that browsers show them; replies in JSON are labelled as JSON and replies in XML as XML, so that clients that go by the label parse them; and no reply with data is ever labelled as HTML, so that no browser runs what is in it.", "quantifier": "every setting, every list of packages, every request to the index and the details of PGNs, every UUID, every outcome of an installation, releases of net/http with and without font signatures", "why_tests_cant": "the label is guessed from the first 512 bytes of the body, which depend on every definition of the table, every setting and every error text", "anchors": ["main/api_server.go: HomeHandler, MessagesIndex, MessageDetailsHandler, SendMessageHandler", "main/ui_server.go: uuidHandler, adminHandler, appsHandler, appInstallHandlerFactory, indexHandler", "assets/js/site.js"]}
{"id": "C130", "title": "The saved file reads back as what was saved", "statement": "The text that WriteConfig writes is TOML, and says of every setting and every interface exactly what the running configuration says; so whatever was posted to /admin, argo can be restarted and comes up with the settings and interfaces it had. (False: an interface whose name has a backslash comes back under another name or the file cannot be read; a line end in a name, or a speed of 2^63 or more, makes a file that argo refuses at the next start, for good; after an interface with an empty name nothing is saved any more; control characters are written unescaped, which TOML forbids.)", "quantifier": "every configuration, every file at the start, every history of POSTs to /admin", "why_tests_cant": "all texts, names and numbers, all histories", "anchors": ["config/config.go: ReadConfig, WriteConfig, TomlConfig", "main/ui_server.go: adminHandler", "main/argo.go: main", "go.mod: github.com/burntsushi/toml"]}
{"id": "C131", "title": "The tab of the interfaces", "statement": "The tab lists the configured interfaces; an interface added in the dialog appears in the list with its type, path and speed, is saved with the settings, and has a type the program knows; the dialog shows the inputs of the chosen type; opening the dialog changes nothing. (False: the list is always empty at first, whatever is configured; an added interface gets a row whose third cell says undefined, and is never saved; recordings and GPSd get another name than the one chosen, and the program ends if it is given such an interface; opening the dialog submits the settings, so that without a UUID four dashes are stored. True: one row per added interface, in order, with the path as typed, as text; the inputs of the dialog fit the type chosen last; nothing done there changes settings or interfaces.)", "quantifier": "every configuration, every sequence of actions on the page, every type and path entered", "why_tests_cant": "all histories of actions and all configurations", "anchors": ["templates/index.gtpl:175-191, 219-268", "assets/js/site.js: handleInterfaceTypeChange, addInterface, submitForm", "main/argo.go: processInterface", "main/ui_server.go: adminHandler, indexHandler"]}
{"id": "C132", "title": "The message index answers what the address asks for", "statement": "Whatever parameters a client puts into the address of the message index, and however it writes them (as they are, percent escapes in either case, + for a space, in any order and with others between), the handler sees exactly them, and the reply is one JSON text with the entries of exactly the definitions of the category asked for, in any case, and of the type asked for, in the order of the table, or null if there are none.", "quantifier": "every query, every encoding of it, every category and type, every release of net/url", "why_tests_cant": "all parameters and all ways to write them", "anchors": ["main/api_server.go: MessagesIndex, GetPGNSummary", "nmea2k/pgn_array.go: PgnList"]}
{"id": "C133", "title": "What is posted to /admin is what the configuration gets, byte by byte", "statement": "Whatever bytes are posted to /admin, either they begin with a JSON object (or null) in which everything meant for the configuration is of its type, and then the settings that have no value get the last value given for them (names in any case, null and unknown members counting for nothing), new interfaces are as last described, everything else stays and the result is saved; or nothing changes and nothing is saved. Whatever is entered in the settings page, the text it posts says exactly what the form says: no text entered can change another setting, and a submission is never refused.", "quantifier": "every body, every configuration, every text and number in the form, every nesting limit", "why_tests_cant": "all byte strings; all texts with any characters in every input", "anchors": ["main/ui_server.go: adminHandler", "config/config.go: TomlConfig", "assets/js/site.js: submitForm, getUUID"]}
{"id": "C134", "title": "What is entered on the settings page is there after the next start", "statement": "Start argo on a configuration file that it can read, post anything to /admin, then submit the settings page: if the configuration running before could be saved, argo can be started again, and then has, for every setting that had a value, that value, for every setting that had none, what was entered, the UUID made of the five inputs, which show it again, and the same interfaces. However often the page is submitted and argo is restarted, it can be started again and keeps its interfaces.", "quantifier": "every file, every earlier history of bodies, every text and number in the form, every number of submissions and restarts", "why_tests_cant": "all texts with any characters through two languages (JSON and TOML), all histories and restarts", "anchors": ["assets/js/site.js: submitForm", "main/ui_server.go: adminHandler", "config/config.go: ReadConfig, WriteConfig", "main/argo.go: main"]}
{"id": "C135", "title": "The log has one line for every request, and it says what was requested", "statement": "Every HTTP request that reaches a handler is logged before, in one line that gives the address of the client, the method and the address requested, in which the path and the query are those of the request; nothing a client puts into a request can make a second line, look like a message of the bus, or put control characters into the log; a request that is not logged was refused by the HTTP library or is OPTIONS *.", "quantifier": "every request line, every client address", "why_tests_cant": "all byte strings in method, path and query", "anchors": ["main/websocket_server.go: loggingHandler, WebSocketServer", "main/argo.go: logFormat"]}
{"id": "C136", "title": "If argo dies while saving, the next start has the old settings or the new ones", "statement": "Start argo on a configuration file that it can read and post anything to /admin; if argo dies at any point of saving the settings, then the next start has the settings from before that POST or, once the save is complete, those that were being saved; it never starts with others, and it can always be started.", "quantifier": "every file, every earlier history of bodies, every body, every point of the save and every division of the writes", "why_tests_cant": "all crash points and partial writes of all configurations", "anchors": ["main/ui_server.go: adminHandler", "config/config.go: WriteConfig, ReadConfig", "main/argo.go: main"]}
