{"id": "C01", "title": "Frame control getters decode the documented bit fields", "statement": "For any two bytes, FrameControl's getters return exactly the IEEE 802.15.4 fields of the little-endian 16-bit word: type = bits 0-2, security = bit 3, pending = 4, ack request = 5, PAN compression = 6, sequence suppression = 8, IE present = 9, destination mode = bits 10-11, version = bits 12-13, source mode = bits 14-15; reserved codes read as Unknown.", "quantifier": "all 65536 frame control words, any trailing bytes", "why_tests_cant": "65536 words times ten fields; unit tests sample a handful of words", "anchors": ["dot15d4-frame/src/frame_control.rs: FrameControl::{frame_type,security_enabled,frame_pending,ack_request,pan_id_compression,sequence_number_suppression,information_elements_present,dst_addressing_mode,src_addressing_mode,frame_version}"]}
{"id": "C02", "title": "A frame control setter changes its own field and no other", "statement": "After set_X(v) the getter X returns v, and every other getter, every other bit and every byte after the first two is unchanged. (False for the boolean setters when v = false and the bit was set: they only OR.)", "quantifier": "all buffers of at least two bytes, all field values", "why_tests_cant": "needs every prior word for every setter; tests start from zeroed buffers", "anchors": ["dot15d4-frame/src/frame_control.rs: FrameControl::set_*"]}
{"id": "C03", "title": "FrameControlRepr emit/parse round trip", "statement": "Emitting a frame control representation into a zeroed two-byte field and parsing it back returns the same representation, and distinct representations emit distinct words.", "quantifier": "all representations with writable type and addressing-mode values", "why_tests_cant": "the full product of field values is not enumerated by tests", "anchors": ["dot15d4-frame/src/repr/frame_control.rs: FrameControlRepr::{parse,emit,buffer_len}"]}
{"id": "C04", "title": "PAN ID presence follows the 802.15.4 tables", "statement": "For every version, addressing mode pair and compression bit, the reader reports destination/source PAN ID present exactly as the standard's tables (2003/2006 rule, 2020 Table 7-2) say, and rejects every combination the 2003/2006 rule forbids.", "quantifier": "all versions x modes x modes x compression", "why_tests_cant": "the table is combinatorial, and it must agree with the extraction code for each entry", "anchors": ["dot15d4-frame/src/addressing.rs: AddressingFields::address_present_flags"]}
{"id": "C05", "title": "Addressing fields are read from consecutive disjoint positions", "statement": "When AddressingFields::new accepts a buffer, dst PAN, dst address, src PAN, src address are read from consecutive byte ranges in this order starting at 0, addresses byte-reversed and PAN ids little-endian, len() is the total of those ranges, never exceeds the buffer, and no getter panics.", "quantifier": "all buffers of any length and all frame control words with known addressing modes", "why_tests_cant": "offsets depend on 2^6 flag combinations and arbitrary contents", "anchors": ["dot15d4-frame/src/addressing.rs: AddressingFields::{new,len,dst_address,src_address,dst_pan_id,src_pan_id}"]}
{"id": "C06", "title": "Addressing fields write/read round trip", "statement": "Writing an addressing representation whose present fields match the frame control's table entry and reading it back yields the same PAN ids and addresses, uses exactly buffer_len bytes, and leaves all following bytes unchanged.", "quantifier": "all frame control words, all addresses and PAN ids, all buffers", "why_tests_cant": "arbitrary addresses x modes x buffers", "anchors": ["dot15d4-frame/src/addressing.rs: AddressingFields::write_fields", "dot15d4-frame/src/repr/addressing.rs: AddressingFieldsRepr"]}
{"id": "C07", "title": "Address text form round trip", "statement": "Parsing the displayed text of a short or extended address returns that address; text with a number of groups other than 2 or 8 is an error; group text that is not hexadecimal panics.", "quantifier": "all addresses, all strings", "why_tests_cant": "2^64 addresses, unbounded strings", "anchors": ["dot15d4-frame/src/addressing.rs: Address::parse, Display for Address"]}
{"id": "C08", "title": "Address classification is a partition", "statement": "Exactly one of absent/short/extended holds, len() and as_bytes() agree with it, Address::from(as_bytes) is the identity, is_broadcast holds of the short address ff:ff only and is_unicast is its negation (so an absent address counts as unicast).", "quantifier": "all addresses", "why_tests_cant": "2^64 addresses", "anchors": ["dot15d4-frame/src/addressing.rs: Address::{is_unicast,is_broadcast,from,as_bytes,to_short,len,is_absent,is_short,is_extended}"]}
{"id": "C09", "title": "Decoding a data frame never panics", "statement": "DataFrame::new returns Ok or Err for every byte string, and accepts exactly strings of 2..=127 bytes (3.. if the sequence number is not suppressed) with security off and known type, version and addressing modes.", "quantifier": "all byte strings", "why_tests_cant": "unbounded input space; adversarial radio input", "anchors": ["dot15d4-frame/src/frames/data.rs: DataFrame::{new,check_len}"]}
{"id": "C10", "title": "Accessors of an accepted data frame never panic", "statement": "Once DataFrame::new accepted a byte string, frame_control, sequence_number, addressing and all its getters, auxiliary_security_header, information_elements with both iterators and element contents, and payload all return without panic.", "quantifier": "all byte strings accepted by DataFrame::new", "why_tests_cant": "unbounded adversarial input including malformed information elements", "anchors": ["dot15d4-frame/src/frames/data.rs: DataFrame::{sequence_number,addressing,auxiliary_security_header,information_elements,payload}", "dot15d4-frame/src/ie/mod.rs: InformationElements"]}
{"id": "C11", "title": "An accepted data frame splits its buffer", "statement": "For an accepted data frame the buffer is the concatenation of the 2 frame-control bytes, the optional sequence number, the addressing fields, the information elements and the payload, with nothing skipped or overlapping; payload is None exactly when nothing remains.", "quantifier": "all byte strings accepted by DataFrame::new", "why_tests_cant": "offset arithmetic over all field combinations", "anchors": ["dot15d4-frame/src/frames/data.rs: DataFrame::payload"]}
{"id": "C12", "title": "Enhanced beacon accessors never panic", "statement": "EnhancedBeacon::new is total and, once it accepts a byte string, all accessors return without panic and the same buffer split holds.", "quantifier": "all byte strings", "why_tests_cant": "unbounded adversarial input", "anchors": ["dot15d4-frame/src/frames/beacon.rs: EnhancedBeacon"]}
{"id": "C13", "title": "Enhanced ack accessors never panic", "statement": "Once EnhancedAck::new accepts a byte string its accessors return without panic. (False: new checks nothing; two-byte frames and malformed IEs panic.)", "quantifier": "all byte strings", "why_tests_cant": "unbounded adversarial input", "anchors": ["dot15d4-frame/src/frames/ack.rs: EnhancedAck"]}
{"id": "C14", "title": "Frame::new is total and dispatches on type and version", "statement": "Frame::new returns Ok or Err for every byte string, Ok only with the variant that the frame type and version designate. (False: any 2003/2006 beacon reaches a todo!() panic.)", "quantifier": "all byte strings", "why_tests_cant": "unbounded adversarial input", "anchors": ["dot15d4-frame/src/frames/mod.rs: Frame::new", "dot15d4-frame/src/frames/beacon.rs: Beacon::new"]}
{"id": "C15", "title": "Information element lists partition the bytes", "statement": "When InformationElements::new accepts bytes, iterating header then payload elements terminates, elements are consecutive, each element's content lies inside the buffer, the element sizes add up to len() and len() is at most the buffer length.", "quantifier": "all byte strings", "why_tests_cant": "iteration over unbounded adversarial input", "anchors": ["dot15d4-frame/src/ie/mod.rs: InformationElements", "dot15d4-frame/src/ie/headers.rs: HeaderInformationElementsIterator", "dot15d4-frame/src/ie/payloads.rs: PayloadInformationElementsIterator"]}
{"id": "C16", "title": "Header IE length and element id fields", "statement": "Setting length then element id of a header IE (in either order) and reading them back returns both. (False: the length mask overlaps the id by one bit and drops bit 0; true for even ids and even lengths below 128.)", "quantifier": "all ids, lengths, prior contents", "why_tests_cant": "65536 prior words x ids x lengths", "anchors": ["dot15d4-frame/src/ie/headers.rs: HeaderInformationElement::{len,element_id,set_length,set_element_id}"]}
{"id": "C17", "title": "Payload IE length and group id fields", "statement": "Setting length then group id of a payload IE and reading them back returns both. (False for lengths of 1024 and more and for the payload termination group, whose id is read with 3 of 4 bits.)", "quantifier": "all group ids, lengths, prior contents", "why_tests_cant": "65536 prior words x ids x lengths", "anchors": ["dot15d4-frame/src/ie/payloads.rs: PayloadInformationElement::{length,group_id,set_length,set_group_id}"]}
{"id": "C18", "title": "Nested IE length and sub id fields", "statement": "Setting the sub id then the length of a nested IE and reading them back returns both. (False for short lengths of 128 and more, long lengths of 1024 and more and short ids of 0x40 and more.)", "quantifier": "all sub ids, lengths, prior contents", "why_tests_cant": "65536 prior words x ids x lengths", "anchors": ["dot15d4-frame/src/ie/nested.rs: NestedInformationElement"]}
{"id": "C19", "title": "Nested information element iteration is safe", "statement": "Iterating the nested elements of any MLME content terminates without panic and yields consecutive elements.", "quantifier": "all byte strings", "why_tests_cant": "unbounded adversarial input", "anchors": ["dot15d4-frame/src/ie/nested.rs: NestedInformationElementsIterator"]}
{"id": "C20", "title": "Time correction round trip", "statement": "For every correction in [-2048, 2047] us and every nack flag, writing correction then nack and reading back returns them, and the reader returns a value in that range for every two bytes.", "quantifier": "all corrections, flags and prior contents", "why_tests_cant": "4096 x 2 x 65536 cases incl. sign extension", "anchors": ["dot15d4-frame/src/ie/headers.rs: TimeCorrection"]}
{"id": "C21", "title": "TSCH synchronization round trip", "statement": "For every absolute slot number below 2^40 and every join metric the TSCH synchronization content round-trips.", "quantifier": "all 2^40 slot numbers, all metrics", "why_tests_cant": "2^48 cases", "anchors": ["dot15d4-frame/src/ie/nested.rs: TschSynchronization"]}
{"id": "C22", "title": "TSCH timeslot round trip", "statement": "Timings whose fields fit their widths survive emit and parse; the default timeslot is emitted as one byte.", "quantifier": "all timing vectors", "why_tests_cant": "2^200 cases", "anchors": ["dot15d4-frame/src/ie/nested.rs: TschTimeslot, TschTimeslotTimings"]}
{"id": "C23", "title": "TSCH slotframe and link reading is safe and complete", "statement": "Reading slotframe descriptors and their links returns exactly the encoded descriptors. (False: a descriptor with zero links makes the link iterator read past its data and panic.)", "quantifier": "all byte strings", "why_tests_cant": "adversarial nested lists", "anchors": ["dot15d4-frame/src/ie/nested.rs: TschSlotframeAndLink, SlotframeDescriptor, SlotframeDescriptorIterator, LinkInformationIterator"]}
{"id": "C24", "title": "Declared frame fields occupy consecutive disjoint positions", "statement": "The accessors generated by the frame attribute macro read each declared field from consecutive disjoint bit positions in declaration order, and size() is where the last one ends. (False for fields declared without #[bytes]/#[bits].)", "quantifier": "all struct declarations in the macro's grammar, all buffers", "why_tests_cant": "the macro is a program transformer: the property ranges over all declarations", "anchors": ["dot15d4-macros/src/lib.rs: frame"]}
{"id": "C25", "title": "FCS acceptance is exact", "statement": "FrameWithFcs::new accepts a byte string iff it has at least 2 bytes and its last two bytes are the CRC-16 (x^16+x^12+x^5+1, reflected, zero init) of the bytes before; content() then returns those bytes; appending the CRC to any content is accepted.", "quantifier": "all byte strings", "why_tests_cant": "unbounded", "anchors": ["dot15d4-frame/src/frames/mod.rs: FrameWithFcs"]}
{"id": "C26", "title": "The FCS detects all short error bursts", "statement": "If an accepted frame is altered by flipping any nonempty set of bits confined to 16 consecutive bit positions (transmission order), the altered frame is rejected; in particular any single bit flip.", "quantifier": "all accepted frames of any length, all burst positions and patterns", "why_tests_cant": "all lengths x positions x 2^16 patterns", "anchors": ["dot15d4-frame/src/frames/mod.rs: FrameWithFcs::{calculate_fcs,check_fcs}"]}
{"id": "C27", "title": "FCS is linear", "statement": "The CRC of the xor of two equal-length contents is the xor of their CRCs.", "quantifier": "all pairs of equal-length byte strings", "why_tests_cant": "unbounded", "anchors": ["dot15d4-frame/src/frames/mod.rs: FrameWithFcs::calculate_fcs"]}
{"id": "C28", "title": "Builder output is self-consistent", "statement": "Every Ok result of finalize after any sequence of builder calls has: sequence suppression bit = no sequence number; addressing modes = kinds of the addresses; IE-present bit = IEs present; PAN ids present as the table for (version, modes, compression) demands, provided no address is Address::Absent.", "quantifier": "all builder call sequences", "why_tests_cant": "unbounded call histories", "anchors": ["dot15d4-frame/src/repr/builder.rs: FrameBuilder"]}
{"id": "C29", "title": "Build, emit, parse round trip", "statement": "For every builder history without Absent addresses and without IEs, emitting the finalized frame into a zeroed buffer of buffer_len() bytes neither panics nor leaves bytes over, DataFrame::new accepts the result and FrameRepr::parse returns the same frame.", "quantifier": "all builder histories, payloads, addresses", "why_tests_cant": "unbounded", "anchors": ["dot15d4-frame/src/repr/mod.rs: FrameRepr::{parse,buffer_len,emit}", "dot15d4-frame/src/repr/builder.rs"]}
{"id": "C30", "title": "IE emission length and round trip", "statement": "Emitting a list of in-range information elements into a zeroed buffer of buffer_len() bytes fills it exactly and parsing it returns the same elements (with the header termination element appended where the standard requires it).", "quantifier": "all IE lists", "why_tests_cant": "unbounded lists", "anchors": ["dot15d4-frame/src/repr/ie/mod.rs: InformationElementsRepr", "dot15d4-frame/src/repr/ie/headers.rs", "dot15d4-frame/src/repr/ie/payloads.rs", "dot15d4-frame/src/repr/ie/nested.rs"]}
{"id": "C31", "title": "Parsing an accepted frame into FrameRepr never panics", "statement": "FrameRepr::parse returns Ok or Err for every accepted data frame. (False: slotframe descriptors without links and custom timeslots panic.)", "quantifier": "all byte strings", "why_tests_cant": "adversarial radio input", "anchors": ["dot15d4-frame/src/repr/mod.rs: FrameRepr::parse", "dot15d4-frame/src/repr/ie/mod.rs"]}
{"id": "C32", "title": "Beacon fields are read at consistent offsets", "statement": "For a beacon long enough for its own counts, superframe specification, GTS information, pending addresses and payload are read from consecutive ranges.", "quantifier": "all byte strings", "why_tests_cant": "counts-dependent offsets", "anchors": ["dot15d4-frame/src/frames/beacon.rs: Beacon, GtsInfo, PendingAddress"]}
{"id": "C33", "title": "Superframe orders are inverse to their codes", "statement": "Conversion of beacon and superframe orders from and to their 4-bit codes is the identity; 0..14 are orders, 15 means on demand / inactive; the orders are read from the low and high half of the first byte of the superframe specification.", "quantifier": "all codes, all base durations", "why_tests_cant": "finite table plus unbounded durations", "anchors": ["dot15d4-frame/src/frames/beacon.rs: BeaconOrder, SuperframeOrder"]}
{"id": "C34", "title": "Auxiliary security header levels", "statement": "The security level decides MIC length 0/4/8/16, authenticity and confidentiality as the standard's table. (False: confidentiality is always reported off.)", "quantifier": "all security control bytes", "why_tests_cant": "256 control bytes x accessors", "anchors": ["dot15d4-frame/src/aux_sec_header.rs"]}
{"id": "C35", "title": "Only one guard of a mutex exists at a time", "statement": "In every interleaving of lock polls, future drops, try_lock and guard drops, at most one MutexGuard is alive, and the mutex is locked iff one is alive.", "quantifier": "all schedules of any number of tasks", "why_tests_cant": "unbounded interleavings", "anchors": ["dot15d4/src/sync/mutex.rs"]}
{"id": "C36", "title": "No lost mutex wakeups", "statement": "Whenever the mutex is free, every task waiting in lock() has been woken since its last poll or can be woken; after a guard drop every registered waiter is woken.", "quantifier": "all schedules of any number of tasks", "why_tests_cant": "unbounded interleavings", "anchors": ["dot15d4/src/sync/mutex.rs"]}
{"id": "C37", "title": "Channel delivers the latest value at most once", "statement": "For every sequence of sends, receives and polls, values received form a subsequence of those sent, no value is received twice, and a value is lost only when overwritten by a later send, which reports it by returning true (send).", "quantifier": "all operation histories", "why_tests_cant": "unbounded histories", "anchors": ["dot15d4/src/sync/channel.rs"]}
{"id": "C38", "title": "No lost channel wakeups", "statement": "With a single receiver task, if a value is pending the receiver has been woken since it last returned Pending; likewise for senders waiting in send_async.", "quantifier": "all operation histories", "why_tests_cant": "unbounded histories", "anchors": ["dot15d4/src/sync/channel.rs"]}
{"id": "C39", "title": "select resolves to the first ready branch with priority to the first", "statement": "select polls the first future, then, only if it is pending, the second; it resolves with the outcome of the first poll at which either is ready, First winning ties; never polls a future after completion.", "quantifier": "all pairs of futures (poll traces)", "why_tests_cant": "all poll traces", "anchors": ["dot15d4/src/sync/select.rs"]}
{"id": "C40", "title": "join completes with both results and never polls a finished future", "statement": "join resolves at the first poll by which both futures have completed, with both outputs, and never polls either future again after it completed.", "quantifier": "all pairs of futures (poll traces)", "why_tests_cant": "all poll traces", "anchors": ["dot15d4/src/sync/join.rs"]}
{"id": "C41", "title": "yield_now yields exactly once", "statement": "The yield_now future is pending exactly at its first poll, wakes its task there, and is ready at the second.", "quantifier": "all poll sequences", "why_tests_cant": "all poll sequences", "anchors": ["dot15d4/src/sync/yield_now.rs"]}
{"id": "C42", "title": "Radio operations are cancelled iff abandoned midway", "statement": "The radio transmit/receive futures call cancel_current_operation exactly once if dropped after the first poll and before completion, and never otherwise; the radio is driven through the documented off -> prepare -> start -> result order.", "quantifier": "all radios, all drop points and poll schedules", "why_tests_cant": "all drop points and poll schedules", "anchors": ["dot15d4/src/phy/radio/futures.rs"]}
{"id": "C43", "title": "Frame filter accepts exactly frames for this device", "statement": "A received data frame is treated as ours iff its destination PAN (if any) is ours or broadcast and the destination address is broadcast, our extended address or our short address (implicit broadcast iff configured).", "quantifier": "all frames, hardware addresses, PAN ids, configurations", "why_tests_cant": "unbounded frames x configuration", "anchors": ["dot15d4/src/csma/mod.rs: is_package_for_us"]}
{"id": "C44", "title": "Acknowledgements are sent exactly for frames that ask for them", "statement": "The receive task sends an ack for a received frame iff it is acceptable and requests acknowledgement (or ack_unicast/everything configured); the ack is the 3-byte immediate ack carrying the frame's sequence number.", "quantifier": "all received frames and configurations, all histories of the reused ack buffer", "why_tests_cant": "the buffer is reused: property of all histories", "anchors": ["dot15d4/src/csma/mod.rs: receive_frame_task"]}
{"id": "C45", "title": "Outgoing ack request bit follows the destination", "statement": "Before transmission the ack request bit is set iff the frame is a unicast data frame. (False when the bit was set beforehand: it is never cleared.)", "quantifier": "all outgoing frames", "why_tests_cant": "unbounded frames", "anchors": ["dot15d4/src/csma/mod.rs: set_ack_request_if_possible"]}
{"id": "C46", "title": "CCA attempts are bounded and the lock state matches the outcome", "statement": "transmit_cca performs at most MAX_CSMA_BACKOFFS attempts, returns Ok only after a successful transmission with the radio lock held, and on failure returns the lock released having reported each backoff.", "quantifier": "all radio outcome sequences, all configurations", "why_tests_cant": "unbounded radio histories", "anchors": ["dot15d4/src/csma/transmission.rs: transmit_cca"]}
{"id": "C47", "title": "Backoff delay bounds", "statement": "The k-th backoff waits unit x r with 0 <= r < 2^BE where BE = min(MIN_BE + k, MAX_BE), so every wait is at most unit x (2^MAX_BE - 1).", "quantifier": "all random streams, all backoff counts", "why_tests_cant": "all random streams", "anchors": ["dot15d4/src/csma/transmission.rs: CSMABackoff"]}
{"id": "C48", "title": "Retransmission is bounded and success means acknowledged", "statement": "For each package the transmit task performs at most MAX_FRAME_RETRIES rounds, reports success without error only if no ack was requested or a matching ack arrived, and reports exactly one terminal error otherwise.", "quantifier": "all radio and ack outcome sequences", "why_tests_cant": "unbounded histories", "anchors": ["dot15d4/src/csma/mod.rs: transmit_package_task, wait_for_valid_ack"]}
{"id": "C49", "title": "The transmit task obtains the radio although the receiver listens", "statement": "Once the transmit task waits for the radio, polling the device gives it the radio: at most two polls pass without it, not counting those in which the radio received something and those that leave the receive task waiting for the outside to handle what was received; and after every poll in which it still waits the device has been woken, unless it waits for the outside so. The exception is needed: a radio that receives something whenever it is asked starves the transmit task forever.", "quantifier": "all devices, surroundings (driver, radio, timer, generator), histories of polls and futures of any length", "why_tests_cant": "unbounded schedules", "anchors": ["dot15d4/src/csma/utils.rs: acquire_lock", "dot15d4/src/csma/mod.rs"]}
{"id": "C50", "title": "PAN id overwrite", "statement": "When overwriting is enabled for the source (destination), a source (destination) PAN id present in an outgoing frame becomes MAC_PAN_ID; a frame without that PAN id, a disabled field and every other byte of the buffer stay unchanged.", "quantifier": "all outgoing frames", "why_tests_cant": "unbounded frames", "anchors": ["dot15d4/src/csma/mod.rs: overwrite_pan_id"]}
{"id": "C51", "title": "Channel numbers", "statement": "The 16 PHY channels carry the numbers 11..26, distinct channels have distinct numbers, number->channel->number is the identity exactly for 11..26 and every other number is rejected.", "quantifier": "all channels and bytes", "why_tests_cant": "finite table", "anchors": ["dot15d4/src/phy/config.rs: Channel"]}
{"id": "C52", "title": "Time arithmetic", "statement": "Instants and durations hold signed microseconds: what is put in is read back; sums, differences, products and quotients are those of integer arithmetic when they fit 64 bits; otherwise a build with overflow checks panics and one without wraps around; dividing by zero panics. (False for products and quotients with usize operands from 2^63 on: they are taken for negative numbers.)", "quantifier": "all 64-bit values", "why_tests_cant": "2^64 values", "anchors": ["dot15d4/src/time.rs", "dot15d4-frame/src/time.rs"]}
{"id": "C53", "title": "Configuration parsing at build time", "statement": "Every environment variable DOT15D4_X whose name X is one of the configuration names and whose value parses sets the generated constant X; all other constants keep their defaults; every other DOT15D4_ name and every value that does not parse abort the build; every name documented in the README is accepted. (False for the last clause: MAC_MAX_FRAME_RETRIES is not.)", "quantifier": "all environments", "why_tests_cant": "unbounded environments", "anchors": ["dot15d4/build.rs"]}
{"id": "C54", "title": "The command line decoder never panics", "statement": "The decoder returns Ok or Err for every text, and on success shows the values the frame accessors return, in order. (False: it panics on text that is not hexadecimal, on every frame Frame::new rejects, and on accepted frames an accessor of which panics.)", "quantifier": "all strings", "why_tests_cant": "unbounded input", "anchors": ["dot15d4-cat/src/lib.rs: FrameParser"]}
{"id": "C55", "title": "The FCS detects up to three flipped bits", "statement": "Flipping one, two or three bits anywhere in an accepted frame of at most 127 bytes yields a frame that FrameWithFcs::new rejects; an odd number of flips is rejected at any length.", "quantifier": "all accepted frames, all positions", "why_tests_cant": "all triples of bit positions in all frames", "anchors": ["dot15d4-frame/src/frames/mod.rs: FrameWithFcs"]}
{"id": "C56", "title": "GTS descriptors of a beacon can be iterated", "statement": "gts_info().gts_spec().slots() of a beacon returns each announced GTS descriptor once, in order, with its direction bit. (False: it panics whenever there is a descriptor; true of a reader constructed over the whole field.)", "quantifier": "all GTS fields", "why_tests_cant": "unbounded contents", "anchors": ["dot15d4-frame/src/frames/beacon.rs: GtsSpecification::slots, GtsSlotIterator"]}
{"id": "C57", "title": "The tasks use the radio exclusively", "statement": "In every execution of a device, at every moment: the transmit and the receive task never hold the radio at once, a radio operation is only started or running while the task that asked for it holds the radio, and a task never acquires the radio it already holds nor releases one it does not hold.", "quantifier": "all radio, driver, timer and lock behaviours, all schedules", "why_tests_cant": "unbounded interleavings", "anchors": ["dot15d4/src/csma/mod.rs: CsmaDevice::run", "dot15d4/src/csma/utils.rs: acquire_lock"]}
{"id": "C58", "title": "The device neither panics nor stops", "statement": "run(), polled any number of times in any surroundings, never panics and never returns.", "quantifier": "all radio, driver, timer and lock behaviours, all schedules", "why_tests_cant": "unbounded adversarial histories", "anchors": ["dot15d4/src/csma/mod.rs: CsmaDevice::run"]}
{"id": "C59", "title": "Only the configured channel is used", "statement": "Every radio operation of a device is on the channel of its configuration; clear channel assessment is demanded for packages and not for acknowledgements.", "quantifier": "all executions", "why_tests_cant": "unbounded histories", "anchors": ["dot15d4/src/csma/mod.rs"]}
{"id": "C60", "title": "Validated frames can be emitted", "statement": "A FrameRepr accepted by validate() is emitted into a buffer of buffer_len() bytes without panicking (the repository's fuzz target repr). (False: validate does not compare the frame control field with the rest; true of every FrameRepr whose frame control field describes it.)", "quantifier": "all FrameReprs (all fields are public)", "why_tests_cant": "unbounded structures", "anchors": ["dot15d4-frame/src/repr/mod.rs: FrameRepr::validate, buffer_len, emit", "fuzz/fuzz_targets/repr.rs"]}
{"id": "C61", "title": "Parsing and emitting again reproduces a frame", "statement": "For every received frame DataFrame::new accepts, FrameRepr::parse followed by emit into buffer_len() bytes gives back the received bytes, except the reserved bit. (False with information elements: a second header termination is added, after which they cannot be read; and emit panics if they could not be read in the first place.)", "quantifier": "all accepted frames", "why_tests_cant": "unbounded contents", "anchors": ["dot15d4-frame/src/repr/mod.rs: FrameRepr::parse, emit", "dot15d4-frame/src/repr/ie/mod.rs: emit"]}
{"id": "C62", "title": "Validation accepts exactly the frames it documents", "statement": "FrameRepr::validate returns Ok exactly for frames such that a data frame has at least one PAN id or address and a payload, and no frame has an empty payload; it returns Err for every other FrameRepr and never panics.", "quantifier": "all FrameReprs", "why_tests_cant": "unbounded structures", "anchors": ["dot15d4-frame/src/repr/mod.rs: FrameRepr::validate", "dot15d4-frame/src/repr/addressing.rs: AddressingFieldsRepr::validate"]}
{"id": "C63", "title": "Printing the parts of a frame never panics and shows their values", "statement": "Formatting a frame control field, an addressing field set, a header, payload or nested information element with {} never panics and prints exactly the values their accessors return, and the variants of enumerations by their identifiers. (False for a HeaderInformationElement or PayloadInformationElement constructed over a truncated element, since new only checks two bytes: formatting panics; true of everything reached from an accepted frame, apart from hazardous nested elements.)", "quantifier": "all byte strings", "why_tests_cant": "unbounded contents", "anchors": ["dot15d4-frame/src/frames/frame_control.rs: Display", "dot15d4-frame/src/ie/headers.rs: Display", "dot15d4-frame/src/ie/nested.rs: Display", "dot15d4-frame/src/ie/payloads.rs: Display"]}
{"id": "C64", "title": "Timeslot timings for a guard time", "statement": "TschTimeslotTimings::new(id, guard) gives the standard's timings with a receive window of length guard that begins half a guard time before the transmission; each setter changes its own timing only, over any history; and the timings can be written to a timeslot element and read back for every guard time that fits its 16 bit field. (False from 4242 us on: the receive offset is negative and reads back as something else.)", "quantifier": "all ids and guard times, all setter histories", "why_tests_cant": "unbounded histories, 2^24 ids and guard times", "anchors": ["dot15d4-frame/src/ie/nested.rs: TschTimeslotTimings, TschTimeslot"]}
{"id": "C65", "title": "Two devices complete an acknowledged transmission", "statement": "A device S transmits a frame whose acknowledgement it awaits. If the radio of a device R delivers those bytes, R finds the frame is for it (or does not ignore frames for others) and R acknowledges the kinds of frames S wants acknowledged, then R, before receiving anything else, transmits exactly one acknowledgement and delivers the frame exactly once; and if S hears the bytes of that acknowledgement while waiting, its transmission ends as acknowledged and no failure is reported to its upper layer.", "quantifier": "all pairs of devices and configurations, all frames, all schedules of both", "why_tests_cant": "two unbounded interleaved histories", "anchors": ["dot15d4/src/csma/mod.rs: CsmaDevice::run, transmit_package_task, receive_frame_task", "dot15d4/src/csma/utils.rs"]}
{"id": "C66", "title": "The receiver is never deaf", "statement": "Once its radio is enabled, after every poll of a device one of these is the case: the radio is receiving on its behalf for the receive task; the receive task is busy answering or handing over a frame it received; it has just finished a round and the device has asked to be polled again; or the transmit task has the radio, and is in the middle of a transmission or is awaiting an acknowledgement with its timeout running. In particular the device never waits only for itself (no deadlock).", "quantifier": "all radio, driver, timer and lock behaviours, all schedules, all histories", "why_tests_cant": "unbounded interleavings", "anchors": ["dot15d4/src/csma/mod.rs: CsmaDevice::run, transmit_package_task, receive_frame_task", "dot15d4/src/csma/utils.rs: acquire_lock"]}
{"id": "C67", "title": "Parsing a frame loses no element", "statement": "When FrameRepr::parse returns Ok, the representation has the frame control field, sequence number, addressing fields, payload and every information element of the frame, in order, with the values the accessors return. (False: of more than 16 header, payload or nested elements the rest is silently left out; up to 16 of each list all are there, and more than 3 slotframes or 4 links are an error.)", "quantifier": "all accepted byte strings", "why_tests_cant": "unbounded contents", "anchors": ["dot15d4-frame/src/repr/mod.rs: FrameRepr::parse", "dot15d4-frame/src/repr/ie/mod.rs: InformationElementsRepr::parse", "dot15d4-frame/src/repr/ie/payloads.rs", "dot15d4-frame/src/repr/ie/nested.rs", "dot15d4-frame/src/repr/ie/headers.rs"]}
{"id": "C68", "title": "Element ids are the standard's", "statement": "element_id, group_id and sub_id give the identifier that the tables of IEEE 802.15.4 assign to the id field of the descriptor, and unknown for codes not in the tables; set_element_id, set_group_id and set_sub_id put the identifier's code into that field and change neither the length field nor the content. (False for reading: one bit of the group id and of the short sub id is ignored, so payload termination, vendor specific and SRM elements are not recognised.)", "quantifier": "all descriptors, all identifiers", "why_tests_cant": "65536 descriptors x all identifiers x all contents", "anchors": ["dot15d4-frame/src/ie/headers.rs: HeaderElementId, element_id, set_element_id", "dot15d4-frame/src/ie/payloads.rs: PayloadGroupId, group_id, set_group_id", "dot15d4-frame/src/ie/nested.rs: NestedSubId, sub_id, set_sub_id"]}
{"id": "C69", "title": "A built frame is what arrives", "statement": "Take a frame given by any history of the FrameBuilder, written by emit and handed to a CsmaDevice as a package. In every execution of the device, everything it transmits for the package carries octets that FrameRepr::parse reads as the built frame, except that the acknowledgement request may have been added and the PAN ids the device is configured to overwrite are its own; nothing is reported as invalid; and in every execution of another device whose radio receives these octets, exactly the received buffer is handed to the upper layer, once, if the frame is for it (or it passes on everything), and nothing if not.", "quantifier": "all builder histories, all pairs of devices and configurations, all executions of both", "why_tests_cant": "unbounded histories of three components", "anchors": ["dot15d4-frame/src/repr/builder.rs: FrameBuilder", "dot15d4-frame/src/repr/mod.rs: FrameRepr::emit, FrameRepr::parse", "dot15d4/src/csma/mod.rs: CsmaDevice::run, transmit_package_task, receive_frame_task", "dot15d4/src/csma/utils.rs"]}
{"id": "C70", "title": "Received frames are handed over in order, once", "statement": "The upper layer is handed the frames that other devices send it in the order in which they were received, unchanged, none left out, and each frame once, however often it is transmitted. (False: a frame transmitted again because its acknowledgement was lost is handed over again; true per reception.)", "quantifier": "all executions of devices, all surroundings", "why_tests_cant": "unbounded histories", "anchors": ["dot15d4/src/csma/mod.rs: CsmaDevice::receive_frame_task, transmit_package_task"]}
{"id": "C71", "title": "The panic feature changes nothing but errors", "statement": "Compiled with the cargo feature panic, FrameRepr::parse gives for every frame what it gives without it, except that an error may become a panic; and the panic occurs wherever an unknown element type, or more slotframes or links than there is room for, are encountered. (False for payload elements: unsupported groups are still an error.)", "quantifier": "all byte strings", "why_tests_cant": "unbounded contents, two compilations", "anchors": ["dot15d4-frame/Cargo.toml: panic", "dot15d4-frame/src/repr/ie/headers.rs: HeaderInformationElementRepr::parse", "dot15d4-frame/src/repr/ie/nested.rs", "dot15d4-frame/src/repr/ie/payloads.rs: PayloadInformationElementRepr::parse"]}
{"id": "C72", "title": "Elements of other implementations are read", "statement": "Header, payload and nested information elements laid out as IEEE 802.15.4 prescribes (descriptor fields for length, id and type; header terminations 1 and 2; payload termination; a frame payload after them) are accepted by InformationElements::new, and the iterators give exactly those elements, with the identifiers of the standard's tables and their contents, while the frame payload is not taken for elements. (False: header elements of odd id or odd length, payload elements of 1024 octets or more, and any frame payload after elements are misread; a header termination 2 makes all elements disappear into the payload.)", "quantifier": "all lists of elements and contents", "why_tests_cant": "unbounded lists and contents", "anchors": ["dot15d4-frame/src/ie/mod.rs: InformationElements", "dot15d4-frame/src/ie/headers.rs: HeaderInformationElement", "dot15d4-frame/src/ie/payloads.rs: PayloadInformationElement", "dot15d4-frame/src/ie/nested.rs: NestedInformationElement"]}
{"id": "C73", "title": "A package is dealt with in bounded time", "statement": "Between one package and the next, and at every moment in between, the transmit task has taken at most MAC_MAX_FRAME_RETIES * (7 * MAC_MAX_CSMA_BACKOFFS + 1) steps, not counting two for each frame received while an acknowledgement is awaited, and the pauses it has asked for add up to at most MAC_MAX_FRAME_RETIES * ((MAC_MAX_CSMA_BACKOFFS - 1) * MAC_UNIT_BACKOFF_DURATION * (2^MAC_MAX_BE - 1) + the wait for an acknowledgement + the pause before a retry), however radio, other stations and random numbers behave.", "quantifier": "all devices and constants, all executions, all surroundings", "why_tests_cant": "unbounded histories", "anchors": ["dot15d4/src/csma/mod.rs: transmit_package_task, wait_for_valid_ack", "dot15d4/src/csma/transmission.rs: transmit_cca"]}
{"id": "C74", "title": "Times are shown rounded to the nearest hundredth of a millisecond", "statement": "Displaying a Duration or an Instant gives its time in milliseconds, in decimal digits with two decimals and the unit ms, and the number shown is one nearest to the time, for every time of less than 2^24 microseconds in either direction, which includes every time that the information elements of a frame can hold; of the two nearest to an odd number of eighths of a millisecond it is the one with an even last digit. For longer times the number shown is off by at most half a hundredth and a 2^-23th (and a 2^-48th) of the time; the first time not shown by a nearest number is 32768014 microseconds.", "quantifier": "all times", "why_tests_cant": "2^64 times", "anchors": ["dot15d4-frame/src/time.rs: impl Display for Duration, impl Display for Instant"]}
{"id": "C75", "title": "The text printed for a frame is unambiguous", "statement": "If dot15d4-cat prints the same text for two frames, then it shows the same for them, line by line: the same headings, elements and values in the same order, except that times may differ that are shown by the same number, and which of the unknown identifiers an unknown element has. In particular both frames have the same frame control field (apart from its reserved bit), sequence number, PAN ids, addresses and payload.", "quantifier": "all pairs of frames that are printed", "why_tests_cant": "infinitely many pairs of frames; numbers, lists and names of any length", "anchors": ["dot15d4-cat/src/lib.rs: FrameParser::parse, FrameParser::parse_hex", "dot15d4-frame/src/time.rs: Display", "dot15d4-frame/src/addressing.rs: Display for Address", "dot15d4-frame/src/ie/nested.rs: Display"]}
{"id": "C76", "title": "The mutex and the channel tolerate wakers that act at once", "statement": "Waker::wake() is executor code and may use the same mutex or channel before it returns (poll the woken task at once, or send from an interrupt handler it triggers). Whatever it does there, no call panics, no uninitialised message is read or dropped, and each call returns what it would have returned, and leaves what it would have left, had the calls been made one after the other. (Proved for the channel if the polls of send_async are of one task. False otherwise: a sender that registers from inside the wake() of another is overwritten and waits unregistered. False of the mutex: wake() is called while its RefCell is borrowed, so it panics exactly if it is used from inside a waker it calls; otherwise the calls are the sequential ones.)", "quantifier": "every history of calls and returns of wake(), nested to any depth", "why_tests_cant": "Tests use executors whose wakers only set a flag; the nesting of calls inside wake() is unbounded and chosen by the executor.", "anchors": ["dot15d4/src/sync/mutex.rs: Mutex::try_lock, Mutex::lock, MutexGuard::drop, MutexLockFuture::poll", "dot15d4/src/sync/channel.rs: Sender::send, Sender::send_async, Receiver::receive"]}
{"id": "C77", "title": "What a device does to its radio", "statement": "A running device first enables its radio, then makes operations on it one after the other: each is prepared to its end before it is started (prepare_receive before receive, prepare_transmit before transmit, by the same task), and each is either carried to its end or, if it is abandoned, cancelled exactly once before the radio is used for anything else. The radio futures are never polled after they returned and never panic. If the future of run is dropped, at any moment, no operation is left going on: one that was under way is cancelled once, and nothing is cancelled otherwise. The operations are the receptions and transmissions the tasks of the device asked for, in that order, and each is prepared with the frame and the configuration its task gave: only ever for the configured channel. What the tasks are told is what the radio's methods returned, and what was then in the buffer.", "quantifier": "all devices, all implementations of the trait Radio, all surroundings, all schedules of polls, all moments of dropping the device", "why_tests_cant": "When a reception is abandoned depends on the interleaving of both tasks with the driver, the timer and the radio; histories are unbounded and every await is a point at which the device can be dropped.", "anchors": ["dot15d4/src/csma/mod.rs: CsmaDevice::run, transmit_package_task, receive_frame_task, wait_for_valid_ack", "dot15d4/src/csma/transmission.rs: transmit_cca", "dot15d4/src/phy/radio/futures.rs: transmit, receive, OnDrop", "dot15d4/src/phy/radio/mod.rs: Radio", "dot15d4/src/sync/select.rs: SelectFuture"]}
{"id": "C78", "title": "An acknowledged package was received", "statement": "If a device reports a package as acknowledged, some other device received exactly the transmitted frame after the transmission began, accepted it (it is addressed to that device, unless that device accepts everything), acknowledged it, and the sender heard an acknowledgement after that.  This is so whenever no other package with the same sequence number is given to a device of the network in that history; without that condition the code's acknowledgements, which carry no address, can be mistaken (proved as a counterexample).", "quantifier": "every number of devices, all their settings, every interleaving of their steps, every loss, delay, reordering and duplication of frames and every noise that is no frame", "why_tests_cant": "it is about all schedules of several devices and all behaviours of the medium between them", "anchors": ["dot15d4/src/csma/mod.rs: CsmaDevice::run, transmit_package_task, receive_frame_task, wait_for_valid_ack", "dot15d4/src/csma/transmission.rs: transmit_cca", "dot15d4/src/phy/radio/mod.rs: Radio"]}
{"id": "C79", "title": "Nothing is handed over that was not given to another device", "statement": "Whenever a device hands a frame to its upper layer, it received that frame before, the frame is for it (or it accepts everything) and no acknowledgement, and another device had been given a package with exactly that frame before - apart from the acknowledgement request bit, which that device may set, and the PAN ids it is configured to overwrite - and had transmitted it: nothing is made up, turned into something else, or delivered to its own sender.", "quantifier": "every number of devices, all their settings, every interleaving of their steps, every loss, delay, reordering and duplication of frames and every noise that is no frame", "why_tests_cant": "it is about all schedules of several devices and all behaviours of the medium between them", "anchors": ["dot15d4/src/csma/mod.rs: CsmaDevice::run, transmit_package_task, receive_frame_task", "dot15d4/src/csma/transmission.rs: transmit_cca", "dot15d4/src/csma/utils.rs: set_ack_request_if_possible, ieee802154_address_overwrite"]}
{"id": "C80", "title": "All traffic goes back to a package", "statement": "Every transmission of a device of a network is either of a package the device was given before, or the acknowledgement of a frame it received before which another device had been given as a package and transmitted. In particular a network to which no packages are given transmits nothing and hands over nothing, whatever noise its radios receive: there are no spontaneous frames, no forwarding and no acknowledgements of acknowledgements.", "quantifier": "every number of devices, all their settings, every interleaving of their steps, every behaviour of the medium as above", "why_tests_cant": "it is about all schedules of several devices and all behaviours of the medium between them", "anchors": ["dot15d4/src/csma/mod.rs: CsmaDevice::run, transmit_package_task, receive_frame_task", "dot15d4/src/csma/transmission.rs: transmit_cca"]}
{"id": "C81", "title": "Writing the content of an element in place", "statement": "Through content_mut() of a header, payload or nested information element the id and the length of the element never change; writing as many octets as the length field announces at its front is what content() returns afterwards, and the octets behind the element stay as they are. content_mut() hands out the whole rest of the buffer: it equals content() only for the last element of a buffer, and copying the content over all of it panics otherwise. Setting length and id and writing the content in any sufficiently long buffer makes the element, for the ids and lengths that can be written at all (C16-C18).", "quantifier": "all buffers, contents, ids and lengths", "why_tests_cant": "all prior contents of the buffer and all positions of the element in it", "anchors": ["dot15d4-frame/src/ie/headers.rs: HeaderInformationElement::content_mut", "dot15d4-frame/src/ie/payloads.rs: PayloadInformationElement::content_mut", "dot15d4-frame/src/ie/nested.rs: NestedInformationElement::content_mut"]}
{"id": "C82", "title": "The traffic is bounded", "statement": "A device begins at most MAC_MAX_FRAME_RETRIES * MAC_MAX_CSMA_BACKOFFS transmissions for each package the upper layer hands it, and at most one, an acknowledgement, for each frame it receives that asks for one. In a network of N devices whose medium makes no copies of frames, the transmissions of all devices together are at most N * R * B for each package given to one of them (R and B bounds on the two constants), acknowledgements included: there are no acknowledgement storms.", "quantifier": "every execution of a device in any surroundings; every history of any number of devices, with frames lost, delayed, overtaking each other", "why_tests_cant": "it is a bound over unbounded executions of several concurrent devices under every schedule of the medium", "anchors": ["dot15d4/src/csma/mod.rs: CsmaDevice::run, transmit_package_task, receive_frame_task, transmit_ack", "dot15d4/src/csma/transmission.rs: transmit_cca"]}
{"id": "C83", "title": "What the fuzzer of the crate can and cannot find", "statement": "With the feature fuzz, FrameRepr::arbitrary yields exactly these frames: any frame control field, sequence number, addressing fields and payload; at most 15 header and 15 payload elements, MLME elements with at most 15 nested ones, at most 2 slotframes of at most 4 links with defined options, and timeslots that are the default one or have timings in fixed ranges. It never fails for a full vector, but may refuse an input for undefined link options. The generated timeslots all have an encoding, of 1 or 25 octets; the 27-octet form, 16 elements of a kind and 3 slotframes, which all have an encoding, are never generated. The target repr does crash on generated frames: on contradictory lengths, on a listed payload termination, and on every validated frame with addressing fields and an unknown addressing mode.", "quantifier": "all frames, all results of the generators for all fuzzer inputs that are long enough", "why_tests_cant": "it characterises the set of all generated values and the absence of others", "anchors": ["dot15d4-frame/src/repr/ie/mod.rs: InformationElementsRepr::arbitrary", "dot15d4-frame/src/repr/ie/payloads.rs: PayloadInformationElementRepr::arbitrary", "dot15d4-frame/src/repr/ie/nested.rs: TschSlotframeAndLinkRepr::arbitrary, SlotframeDescriptorRepr::arbitrary, TschLinkOptionRepr::arbitrary, TschTimeslotRepr::arbitrary", "fuzz/fuzz_targets/repr.rs"]}
{"id": "C84", "title": "Every message given to a channel is received or destroyed, once", "statement": "Over the whole life of a channel, split any number of times and finally dropped, every message given to send or send_async is returned by receive or destroyed exactly once; in particular no message is received twice, destroyed twice, or destroyed after it was received, and the message of a send_async future that is dropped while waiting is destroyed with it. (False of the code: a message still in the channel when the channel is split again or dropped is leaked. Exactly those messages are: for every such moment at which has_item() is true, the message sent last.)", "quantifier": "all message types, all numbers of splits, all histories of sends, polls and drops of futures in between", "why_tests_cant": "it is about all histories of the channel's life, and about destructors, which assertions do not see", "anchors": ["dot15d4/src/sync/channel.rs: Channel::split, Sender::send, Sender::send_async, Receiver::receive"]}
{"id": "C85", "title": "A protected frame arrives as built or not at all", "statement": "A frame made by the builder, emitted, and followed by its frame check sequence (there is exactly one) in at most 127 octets, that reaches a receiver with up to three bits flipped, an odd number of bits flipped, or any bits flipped within sixteen consecutive ones, is rejected by FrameWithFcs::new - unless nothing was flipped, and then it is accepted, its content is accepted as a data frame and FrameRepr::parse returns the frame that was built. More cannot be promised: there are two valid frames four flips apart.", "quantifier": "all frames of the builder except those C29 excludes (immediate acknowledgments given an address, elements followed by a payload or without an encoding, Address::Absent), all sets of flipped bits of these kinds", "why_tests_cant": "it ranges over all frames and all error patterns", "anchors": ["dot15d4-frame/src/frames/mod.rs: FrameWithFcs", "dot15d4-frame/src/repr/builder.rs: FrameBuilder", "dot15d4-frame/src/repr/mod.rs: FrameRepr::emit, FrameRepr::parse"]}
{"id": "C86", "title": "Backoffs are random and uniform", "statement": "Before each clear channel assessment the device pauses for a random number of unit backoff periods between 0 and 2^BE - 1. If the words of the random number generator are equally likely and independent, so are all numbers of periods, and all sequences of them; two devices that back off together choose the same pause with probability 2^-BE. (False of the code for the first assessment of a transmission, which is made at once: there are exactly as many pauses before an attempt as attempts before it.)", "quantifier": "all configurations whose pauses fit into 32 bits, all words of the generator, all executions of a transmission", "why_tests_cant": "it counts over all 2^32 random words and all sequences of them", "anchors": ["dot15d4/src/csma/transmission.rs: transmit_cca, CCABackoffStrategy::perform_backoff"]}
{"id": "C87", "title": "Emitting does not depend on what the buffer held before", "statement": "A frame made by the builder is emitted as the same octets into every buffer of buffer_len() octets, whatever the buffer held. (False of the code: the setters of the flags of the frame control field only set bits, so each flag emitted, and the reserved bit, is that of the frame or that of the buffer. This is all: the octets are those emitted into a zeroed buffer if and only if the buffer does not start with a frame control field that has a flag the frame has not. So a buffer that held a frame is good for another exactly if the other has all its flags, as with the immediate acknowledgments of the medium access controller.)", "quantifier": "all frames of the builder except those C29 excludes, all buffers", "why_tests_cant": "it compares the results for all contents of the buffer", "anchors": ["dot15d4-frame/src/repr/mod.rs: FrameRepr::emit", "dot15d4-frame/src/frames/data.rs: DataFrame::set_frame_control, set_sequence_number, set_addressing_fields, set_information_elements, set_payload", "dot15d4-frame/src/frame_control.rs: FrameControl setters"]}
{"id": "C88", "title": "Octets that follow a frame are taken as payload", "statement": "FrameRepr::parse given an emitted frame and further octets after it (such as a frame check sequence, or the rest of a receive buffer) returns the frame with these octets added to its payload and nothing else changed; given a frame whose payload was cut short it returns the frame with the shorter payload. (False of the code for frames that end with information elements: parsing goes on in what follows, which is taken as further elements if it reads as such.)", "quantifier": "all frames of the builder except those C29 excludes, all octets that follow", "why_tests_cant": "it ranges over all frames and all octets after them", "anchors": ["dot15d4-frame/src/repr/mod.rs: FrameRepr::parse, FrameRepr::emit", "dot15d4-frame/src/frames/data.rs: DataFrame::payload, DataFrame::information_elements"]}
{"id": "C89", "title": "A beacon is read as the standard lays it out", "statement": "For every beacon laid out as IEEE 802.15.4-2020, 7.3.1 prescribes (superframe specification; GTS specification, followed by directions and descriptors if there are any; pending address specification and addresses, each least significant octet first as in the addressing fields; payload) the accessors of Beacon return the superframe specification, the pending addresses and the payload that were laid out. (False of the code: it holds exactly of beacons without GTS descriptors all of whose pending addresses read the same backwards. Addresses are returned with their octets swapped, and the directions octet is not counted, so that the last octet of the last descriptor is taken for the pending address specification and the payload is never found, or there is a panic.)", "quantifier": "all unsecured beacons with consistent counts", "why_tests_cant": "it ranges over all beacons; the characterisation is exact", "anchors": ["dot15d4-frame/src/frames/beacon.rs: Beacon::superframe_specification, Beacon::pending_address, Beacon::payload, GtsInfo::length, PendingAddressIterator::next, GtsSlot"]}
{"id": "C90", "title": "The auxiliary security header is skipped as the standard lays it out", "statement": "The length that AuxiliarySecurityHeader::len returns, and by which the accessors of secured beacons and acknowledgments skip the header, is that of the standard: one octet, four of frame counter unless suppressed, and 0, 1, 5 or 9 octets of key identifier according to the key identifier mode. (False of the code, which takes the length of the message integrity code for it: it is right exactly for headers without key identifier that have a frame counter at the levels with a four-octet code, or no frame counter at the levels without a code.)", "quantifier": "all security control octets, all secured beacons and enhanced acknowledgments", "why_tests_cant": "it ranges over all frames; the characterisation is exact", "anchors": ["dot15d4-frame/src/aux_sec_header.rs: AuxiliarySecurityHeader::len, SecurityLevel::mic_length", "dot15d4-frame/src/frames/beacon.rs: Beacon::superframe_specification", "dot15d4-frame/src/frames/ack.rs: EnhancedAck::payload"]}
{"id": "C91", "title": "Reserved bits are ignored on reception", "statement": "Octets that differ in reserved bits alone are read alike: bit 7 of the frame control field (the frame is accepted or not, parsed into the same FrameRepr, and for the device or not), bit 7 of the security control octet, bit 13 of the superframe specification, bits 3 to 6 of the GTS specification, bit 7 of the GTS directions, bits 3 and 7 of the pending address specification, bits 12 to 14 of a time correction, bits 5 to 7 of the options of a TSCH link.", "quantifier": "all octet strings, all values of the reserved bits", "why_tests_cant": "it compares the results for all pairs of inputs that differ in reserved bits", "anchors": ["dot15d4-frame/src/frame_control.rs: FrameControl", "dot15d4-frame/src/repr/mod.rs: FrameRepr::parse", "dot15d4-frame/src/frames/beacon.rs", "dot15d4-frame/src/aux_sec_header.rs: SecurityControl", "dot15d4-frame/src/ie/headers.rs: TimeCorrection", "dot15d4-frame/src/ie/nested.rs: LinkInformation::link_options", "dot15d4/src/csma/mod.rs: is_package_for_us"]}
{"id": "C92", "title": "Channel access is the standard's unslotted CSMA-CA", "statement": "A transmission that has ended went through a run of the unslotted CSMA-CA algorithm of IEEE 802.15.4, 6.2.5.1, with the configured constants, and succeeded or failed as that does: a random wait of 0 to 2^BE - 1 unit backoff periods before every clear channel assessment, BE starting at the minimum and growing by one per busy assessment up to the maximum, failure when the number of backoffs exceeds its maximum. (False of the code: it does not wait before the first assessment, and gives up one assessment early. With one backoff less, and its first wait left out, it is a run of the algorithm.)", "quantifier": "all constants whose pauses fit into 32 bits, all executions of a transmission", "why_tests_cant": "it ranges over all channel states, random numbers and schedules", "anchors": ["dot15d4/src/csma/transmission.rs: transmit_cca, CCABackoffStrategy::perform_backoff"]}
{"id": "C93", "title": "The frame filter is the standard's", "statement": "The device passes on exactly the frames that third level filtering of IEEE 802.15.4, 6.7.2, accepts: destination PAN id and address match or are broadcast, a beacon comes from the device's PAN, frames that only have a source are accepted by the PAN coordinator. (False of the code: the PAN a beacon comes from is not looked at, and all frames with addressing fields but without destination address are dropped, among them the beacons of versions 2003 and 2006 and what is sent to a coordinator. For frames with destination, beacons excepted, the filter is exactly the standard's.)", "quantifier": "all accepted frames, all PAN ids and hardware addresses, all executions of a device", "why_tests_cant": "it ranges over all frames and configurations", "anchors": ["dot15d4/src/csma/mod.rs: CsmaDevice::is_package_for_us, receive_frame_task"]}
{"id": "C94", "title": "Acknowledgements are those of the standard", "statement": "With the default options the receive task of a device transmits exactly the acknowledgements of IEEE 802.15.4, 6.7.4.2: for data frames and MAC commands sent to it alone with the ack request field set, an Imm-Ack with the sequence number of the frame for versions 0 and 1, an Enh-Ack for version 2. (False of the code: it answers frames of version 2 with an Imm-Ack as well, and frames of other types that ask. For data frames and commands of versions 0 and 1 it is true, both ways.)", "quantifier": "all devices with default options, all executions", "why_tests_cant": "it ranges over all executions and received frames", "anchors": ["dot15d4/src/csma/mod.rs: CsmaDevice::receive_frame_task"]}
{"id": "C95", "title": "A built frame is laid out as the standard prescribes", "statement": "For every sequence of builder calls that the builder accepts, the octets emitted are a function of what was asked for, the frame of IEEE 802.15.4, 7.2: frame control field with type, version, addressing modes, suppression, compression and element bits, then the sequence number, the PAN ids of the table and the addresses least significant octet first, the information elements with their terminations, the payload. Two sequences of calls give the same octets exactly if they ask for the same type, version, sequence number, addresses, PAN ids sent, elements and payload. (False of the code for elements followed by a payload, where emit panics.)", "quantifier": "all constructors, all sequences of builder calls of any length", "why_tests_cant": "it ranges over all histories and compares all pairs of them", "anchors": ["dot15d4-frame/src/repr/builder.rs: FrameBuilder", "dot15d4-frame/src/repr/mod.rs: FrameRepr::emit", "dot15d4-frame/src/repr/addressing.rs", "dot15d4-frame/src/frame_control.rs"]}
{"id": "C96", "title": "What the environment of the build asks for is what the device does", "statement": "For every environment of the build that sets constants to expressions of their types, in whatever order the build script's hash map is iterated: the generated file compiles, and every constant of the device has the value set, or its documented default if none is set; an environment that sets a constant to something else does not compile. A device with the default configuration and constants uses channel 26 only, delivers frames to the broadcast PAN and the broadcast or its own address, acknowledges those that ask and are not broadcast half a millisecond later, asks for acknowledgements of data frames and commands that are not broadcast, replaces source PAN ids but not destination PAN ids, makes at most 48 attempts and three transmissions of a package, gives up after 16 busy assessments or three transmissions, and pauses only for multiples of 320 us below 256 of them, 2288 us or 1000 us.", "quantifier": "all environments, iteration orders, executions of a device with defaults", "why_tests_cant": "it ranges over all environments and all executions", "anchors": ["dot15d4/build.rs: main", "dot15d4/src/csma/user_configurable_constants.rs", "dot15d4/src/csma/constants.rs", "dot15d4/src/csma/mod.rs: CsmaConfig::default"]}
{"id": "C97", "title": "Parsing loses nothing, and what is left of a frame that was cut short", "statement": "Octet strings that are accepted and differ in more than the reserved bit of the frame control field are read as different frames. (False of the code: seventeen header elements and sixteen are read as the same frame. It holds for all frames without information elements.) Of such a frame every beginning that has the frame control field and the sequence number is accepted and read as a frame with the same frame control and sequence number and a different content: with the same addresses and the beginning of the payload if the cut is in the payload, otherwise as a frame without addresses whose payload is what is left of the addressing fields, which a device passes on exactly if implicit broadcast is configured, whoever the frame was for; shorter pieces are refused.", "quantifier": "all pairs of accepted octet strings, all cuts, all configurations and hardware addresses", "why_tests_cant": "it compares the results for all pairs of inputs", "anchors": ["dot15d4-frame/src/frames/data.rs: DataFrame", "dot15d4-frame/src/repr/mod.rs: FrameRepr::parse", "dot15d4/src/csma/mod.rs: CsmaDevice::is_package_for_us"]}
{"id": "C98", "title": "A protected frame has one length", "statement": "Of octets that FrameWithFcs::new accepts no longer string and no beginning is accepted. (False, of the code as of the standard's checksum: zero octets in front of a frame or behind it are never noticed, so a receive buffer filled up with zeros passes the check and the content then ends with the real check sequence and zeros; two protected frames in one buffer pass as one.) Exactly: octets added or cut off at either end go unnoticed if and only if they are a single zero octet or accepted by FrameWithFcs::new themselves; so up to two octets, not all zero, are always noticed.", "quantifier": "all octet strings, of any length", "why_tests_cant": "it ranges over all frames and all additions", "anchors": ["dot15d4-frame/src/frames/mod.rs: FrameWithFcs::new, content, check_fcs, calculate_fcs"]}
{"id": "C99", "title": "Reading a beacon never panics", "statement": "On any octets Beacon::new_unchecked(octets).payload() returns. (False of the code: it returns for exactly the octet strings that hold a whole beacon - known addressing modes, all announced addressing fields, the security header if announced, the superframe specification, the GTS specification with three octets for each announced descriptor, the pending address specification with the announced addresses - and panics on every other; in particular every whole beacon panics when cut before its payload. Octets behind a beacon extend its payload and change nothing else.)", "quantifier": "all octet strings, of any length; all cuts; all extensions", "why_tests_cant": "the input is arbitrary and unchecked; the offsets depend on four counts read from it", "anchors": ["dot15d4-frame/src/frames/beacon.rs: Beacon::new_unchecked, Beacon::payload, Beacon::superframe_specification, Beacon::gts_info, Beacon::pending_address", "dot15d4-frame/src/addressing.rs: AddressingFields::len"]}
{"id": "C100", "title": "How often a package is handed over", "statement": "In every history of a network of any number of devices whose medium makes no copies - no device receives a frame more often than the others transmitted it over a channel found clear - a device hands a frame to its upper layer at most MAC_MAX_FRAME_RETRIES times for every package the other devices were given of which they make that frame, however often the channel was busy; and at most once per package if the frame does not request an acknowledgement. Both bounds are reached.", "quantifier": "all numbers of devices, histories, frames longer than an acknowledgement", "why_tests_cant": "it ranges over all schedules, losses and radio answers of all devices together", "anchors": ["dot15d4/src/csma/mod.rs: CsmaDevice::transmit_package_task, CsmaDevice::receive_frame_task", "dot15d4/src/csma/transmission.rs: transmit_cca"]}
{"id": "C101", "title": "Packages are handed over in the order given", "statement": "The frames a device gets on the air are, in this order, those it makes of the packages it was given: each at most MAC_MAX_FRAME_RETRIES times in a row, and only once if it requests no acknowledgement. Unless it reported CcaFailed, every frame it made, but perhaps of the last package, did get on the air. A device hands over frames in the order received. So for any kind of frame that the medium does not reorder or copy between two devices, whatever it loses: the receiver hands these frames over in the order in which the sender was given the packages, repetitions only directly after each other.", "quantifier": "all executions of both devices, all kinds of frames, all losses", "why_tests_cant": "it relates the complete histories of two devices under all schedules and radio answers", "anchors": ["dot15d4/src/csma/mod.rs: CsmaDevice::transmit_package_task, CsmaDevice::receive_frame_task", "dot15d4/src/csma/transmission.rs: transmit_cca"]}
{"id": "C102", "title": "What the medium does not lose is handed over", "statement": "Every frame addressed to a device that its radio receives is handed to the upper layer, in the order received and once per reception; at most the last one is still to come. (False of the code: frames that arrive while the device waits for an acknowledgement are dropped. It holds for everything the receive task receives, so in full for a device given only packages for which it wants no acknowledgement.) So if a sender did not report CcaFailed and the receive task of a receiver gets all its frames of some kind addressed to it, the receiver hands over the frame of every package given to the sender, but perhaps of the last, in the order given.", "quantifier": "all executions of both devices, all kinds of frames for the receiver", "why_tests_cant": "it relates the complete histories of two devices under all schedules and radio answers", "anchors": ["dot15d4/src/csma/mod.rs: CsmaDevice::transmit_package_task, CsmaDevice::receive_frame_task, CsmaDevice::wait_for_valid_ack"]}
