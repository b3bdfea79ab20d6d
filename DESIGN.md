# DESIGN

Formal model of `thvdveld/dot15d4` (Rust, `/repo`) in Lean 4.33.0, under `lean/Verif/`.

## Approach

* `Verif/Rust.lean`: the little Rust semantics used: `Out α = ok a | err | panic` (a function
  returning `Result` uses `err`; array out-of-bounds, `unwrap`, `todo!`, `unreachable!`,
  `copy_from_slice` length mismatch give `panic`), bytes are `BitVec 8`, buffers `List (BitVec 8)`,
  `&mut [u8]` becomes "returns the new buffer".
* One model module per source file (`Verif/Model/*`), each definition citing file and lines.
* Helper lemmas in `Verif/Lemmas/*`, small independent specifications in `Verif/Spec/*`,
  property theorems in `Verif/Props/*` (one file per group), named `Cnn_...`.
* Where the code violates the property, the negation is proved with a concrete witness
  (`Cnn_..._false`) and what does hold is proved as `Cnn_..._partial`.

## Plan per property

* **C01** Frame control getters decode the documented bit fields — Model `FrameControl` over byte lists; spec = bit tests of the LE word; proved bitwise for all words.
* **C02** A frame control setter changes its own field and no other — Write/read and frame laws per setter; boolean setters proved on the cases where they hold (_partial) and the negation proved with a witness.
* **C03** FrameControlRepr emit/parse round trip — Round trip of `FrameControlRepr.emit`/`parse` on zeroed buffer.
* **C04** PAN ID presence follows the 802.15.4 tables — Independent table `Spec.panPresence`; proved equal to `addressPresentFlags` on all entries.
* **C05** Addressing fields are read from consecutive disjoint positions — Model readers; prove layout as concatenation of four segments.
* **C06** Addressing fields write/read round trip — Model write_fields; prove write/read for all flags.
* **C07** Address text form round trip — Model Display and parse over `List Char`; induction free, by bytes (256 table lifted).
* **C08** Address classification is a partition — Direct.
* **C09** Decoding a data frame never panics — Model DataFrame::new; characterise acceptance.
* **C10** Accessors of an accepted data frame never panic — No-panic lemmas for each accessor from acceptance.
* **C11** An accepted data frame splits its buffer — Offsets lemma; append decomposition.
* **C12** Enhanced beacon accessors never panic — Same as C09-C11 for EnhancedBeacon.
* **C13** Enhanced ack accessors never panic — Negation with witness; _partial for accepted frames, with security, and for every byte string exactly which accessor panics and what the others return (C13_exact_partial).
* **C14** Frame::new is total and dispatches on type and version — Negation with witness; _partial for non-beacon types.
* **C15** Information element lists partition the bytes — Iterator as fuelled loop whose fuel is proved sufficient; induction.
* **C16** Header IE length and element id fields — Bitwise; negation + partial.
* **C17** Payload IE length and group id fields — Bitwise; negation + partial.
* **C18** Nested IE length and sub id fields — Bitwise; negation + partial.
* **C19** Nested information element iteration is safe — Iterator induction.
* **C20** Time correction round trip — Bitwise/BitVec.toInt.
* **C21** TSCH synchronization round trip — Nat arithmetic.
* **C22** TSCH timeslot round trip — Per-field round trip.
* **C23** TSCH slotframe and link reading is safe and complete — Iterator induction; negation + partial for descriptors with ≥1 links.
* **C24** Declared frame fields occupy consecutive disjoint positions — Model the macro as an interpreter over field declarations; layout theorem by induction for declarations where all fields are annotated; negation for the others.
* **C25** FCS acceptance is exact — CRC bit-serial model; acceptance iff.
* **C26** The FCS detects all short error bursts — CRC linearity and injectivity of the LFSR step: burst theorem by induction over frame length.
* **C27** FCS is linear — Linearity by induction.
* **C28** Builder output is self-consistent — Builder as state machine; invariant by induction over call lists.
* **C29** Build, emit, parse round trip — Composition of emit and parse.
* **C30** IE emission length and round trip — Induction over IE lists.
* **C31** Parsing an accepted frame into FrameRepr never panics — Negation with witness; partial: no MLME slotframe/timeslot elements; then the exact condition (an unreadable-to-the-parser nested element that the loops reach) from panic versions of the loop lemmas of C67, and the fuzz target frame.
* **C32** Beacon fields are read at consistent offsets — Model Beacon readers; partial.
* **C33** Superframe orders are inverse to their codes — Direct.
* **C34** Auxiliary security header levels — Table; negation for confidentiality.
* **C35** Only one guard of a mutex exists at a time — Labelled transition system over all schedules; invariant by induction.
* **C36** No lost mutex wakeups — Same LTS; registration invariant.
* **C37** Channel delivers the latest value at most once — LTS with history ghost; conservation by induction.
* **C38** No lost channel wakeups — Same LTS.
* **C39** select resolves to the first ready branch with priority to the first — Futures as poll-traces (state machine parameters); induction on polls.
* **C40** join completes with both results and never polls a finished future — Same.
* **C41** yield_now yields exactly once — Same.
* **C42** Radio operations are cancelled iff abandoned midway — OnDrop/generator state machine; all drop points.
* **C43** Frame filter accepts exactly frames for this device — Decision function + independent spec.
* **C44** Acknowledgements are sent exactly for frames that ask for them — Decision function + ack buffer history induction.
* **C45** Outgoing ack request bit follows the destination — Negation + partial.
* **C46** CCA attempts are bounded and the lock state matches the outcome — Loop over oracle outcome list; induction.
* **C47** Backoff delay bounds — Arithmetic over all random values.
* **C48** Retransmission is bounded and success means acknowledged — Loop over oracle outcomes; induction.
* **C49** The transmit task obtains the radio although the receiver listens — run as polled by an executor with the real mutexes and channel (Model/Prog, Model/CsmaSync). Invariant of what a poll leaves of the two tasks (AcqCtx, RxInner, Phase), with a measure that every poll decreases, unless the radio received something; the mutex state comes from C40_device's invariant (LockJ). Starvation is a proved counterexample.
* **C50** PAN id overwrite — Byte-level function; proved.
* **C51** Channel numbers — Finite table.
* **C52** Time arithmetic — Integer arithmetic with explicit overflow condition.
* **C53** Configuration parsing at build time — build.rs as a function from the environment to generated definitions or an abort (Model/Build).
* **C54** The command line decoder never panics — The decoder as a function from bytes to lines or a panic (Model/Cat); exact panic condition and printed lines for every byte string; negation with witnesses.
* **C55** The FCS detects up to three flipped bits — CRC linearity over GF(2): order of x in the quotient by the generator bounds the distance.
* **C56** GTS descriptors of a beacon can be iterated — Model the GTS reader; negation with witness; partial.
* **C57** The tasks use the radio exclusively — Each task as a program (Model/Prog); the calls lock/try_lock/unlock and the radio calls, projected per task, are accepted by a two-state automaton at every moment of every execution (program logic, Lemmas/Prog). With a lock that is the mutex of Model/Sync this gives exclusive use for every schedule.
* **C58** The device neither panics nor stops — No execution of the program runDevice ends in a panic or a result; lifted to polls by Lemmas/Poll.
* **C59** Only the configured channel is used — All radio calls of every execution, by Prog.Only.
* **C60** Validated frames can be emitted — Coherent = frame control describes the frame; emission lemmas generalised from builder histories to every coherent FrameRepr; gaps of validate by evaluation; exact panic condition without elements and security by comparing three lengths (written, reserved, declared); with elements by a small calculus of emission steps that either take n octets or panic (Props/EmitExact).
* **C61** Parsing and emitting again reproduces a frame — A split of the received bytes (C10) gives a coherent FrameRepr; emission is the concatenation of its parts; decodeFc is injective up to the reserved bit.
* **C62** Validation accepts exactly the frames it documents — Case analysis of validate against a stated predicate.
* **C63** Printing the parts of a frame never panics and shows their values — Display implementations as functions from bytes to the pieces of text or a panic (Model/Display); exact text and exact panic condition; negation with witnesses.
* **C64** Timeslot timings for a guard time — Record model; induction over setter histories; signed arithmetic; the written part from C22; negation with an interval of witnesses.
* **C65** Two devices complete an acknowledged transmission — Composition of C44_device for the receiver and of SendLog.facts (C48) for the sender, linked by the bytes on the air; uniqueness of the header read from the bytes.
* **C66** The receiver is never deaf — A poll-level program logic (Lemmas/Rests): a program that keeps to a protocol, with a predicate relating the protocol's state to the list of calls it waits for after a poll; the transmit task never rests holding the radio idly; the receive task's resting places; the lock invariant of C57 joins the two.
* **C67** Parsing a frame loses no element — A relation between octets and FrameRepr written with the accessors only (FrameSays), proved equivalent to parse returning Ok by induction over the element loops, for the two kinds of capacity check (stop silently, error). The full statement (no element lost) is refuted by a frame of seventeen elements.
* **C68** Element ids are the standard's — The standard's tables as association lists; reading proved against them for every descriptor word (bit fields as div/mod of the word), writing for every table entry by bitwise identities. The full statement is refuted for the ids whose top bit is not read.
* **C69** A built frame is what arrives — Composition of C28, C29, C45, C50, C48 and C44: a frame has one header (header_unique), so the header a device works on is that of the built frame; the changes it makes give the octets of the changed frame, which C29's reader lemma reads; the histories of both devices are cut at packages and receptions. Partial as C29: immediate acknowledgments with addresses, and elements followed by a payload, are not written correctly.
* **C70** Received frames are handed over in order, once — The history of a device is cut into the rounds of its receive task (C44_device); the buffers received with a frame to pass on and the buffers handed over are compared list against list at every moment. The full statement is refuted by a run in which the acknowledgement is lost.
* **C71** The panic feature changes nothing but errors — Model/ReprPanic is the parser compiled with the feature; a relation (equal, or an error became a panic) is carried through every function; unknown types by cases over the identifiers; capacities from C67_too_many and the absence of errors in the slotframe parser with the feature.
* **C72** Elements of other implementations are read — A small encoder written from the standard (Spec/IeWire); the positions at which the iterators find elements (C15, C19) computed for encoded lists by induction; negations for the terminations, proved for all lists.
* **C73** A package is dealt with in bounded time — Every step and every pause of the transmit program (Model/Csma) is weighed; bounds for each part are composed along the program, for every prefix of every execution, and instantiated with the default constants; an execution reaching the bound is exhibited.
* **C74** Times are shown rounded to the nearest hundredth of a millisecond — The characters printed (Model/Text), with the conversion to f32 and the division rounded to nearest, ties to even, as exact rational arithmetic; numerals given a value by a separate specification (Spec/Text); error analysis for every time.
* **C75** The text printed for a frame is unambiguous — Injectivity of the printing functions of Model/Text: numerals have one value, the characters after a number are no digits, names and labels differ pairwise (checked by the kernel on the finite tables), rows end in line breaks and nothing printed contains one; the lines of every printed frame are of the forms considered (from C54).
* **C76** The mutex and the channel tolerate wakers that act at once — Model/Reenter cuts each call at its wake() and lets any further calls happen there (a stack of unfinished calls); the specification makes the calls of Model/Sync one after the other. Invariant over all histories: every unfinished call only has to return.
* **C77** What a device does to its radio — Model/Drops adds to the polls of Model/Prog what the drop of a future does; Model/DeviceRadio puts the futures of Model/Radio, over an arbitrary implementation of the trait, in the place of the device's radio calls. Each task keeps to a protocol (also where it is dropped), by induction over its program; an invariant links both protocols, the mutex, the suspended future and the record of the radio's methods.
* **C78** An acknowledged package was received — Spec/Network defines a history of a network: an interleaving of executions of any number of devices in which a frame is only received after another device began to transmit it. From the heard acknowledgement (C48) one goes back to the device that transmitted it, by C65_ack_means_received to what that device had received, and from there to the device that transmitted that; the sequence numbers exclude all but the sender. C78_false is a network of three devices.
* **C79** Nothing is handed over that was not given to another device — Histories of networks as in C78. From the delivery (C44's grammar) back to the reception, by the medium to a transmission, which is no acknowledgement since those are dropped, and by C48's grammar back to the package.
* **C80** All traffic goes back to a package — As C79, for every transmission; silence without packages is a corollary.
* **C81** Writing the content of an element in place — content_mut as a mutation of the buffer from octet 2; one statement about an abstract element API, proved for the three kinds from the shape of their accessors.
* **C82** The traffic is bounded — count calls in the records of C44 and C48 (each package: C48's bound on attempts; each reception: at most one acknowledgement), sum over the devices of C78's network model, and match receptions to transmissions frame by frame where the medium makes no copies
* **C83** What the fuzzer of the crate can and cannot find — Model/Arbitrary models the generators as the sets of their possible results (any value of a primitive, any number of a range, the derived implementations as any value), with overflowing pushes told apart from refused link options; Spec/Arbitrary says which frames these are without mentioning the generators.  By rewriting sequences into existentials, with induction for the pushing loops; the crashes by C60 and evaluation.  That the input bytes of the fuzzer may run out (NotEnoughData) is not modelled.
* **C84** Every message given to a channel is received or destroyed, once — The life of a channel as an inductive set of ledgers (Spec/Ledger) over the channel system of C37, extended by split and drop; the balance given = received + destroyed + left behind + inside + held is an invariant; negation with a witness.
* **C85** A protected frame arrives as built or not at all — Composition of C29 (build, emit, parse) with C25, C26 and C55; the buffer is any accepted one with the emitted content, shown to exist uniquely.
* **C86** Backoffs are random and uniform — Counting: the words that lead to a number of periods as a finite set, its cardinality by a bijection; sequences by a product; the place of the pauses by an invariant of the transmission history of C46; negation with an execution.
* **C87** Emitting does not depend on what the buffer held before — The emission of C29 repeated for a buffer of arbitrary octets; the frame control word over an old one bit by bit; every later step keeps the first two octets; negation with a witness.
* **C88** Octets that follow a frame are taken as payload — Parsing of C60 applied to the emitted octets with another payload, or with further elements; negation with a witness.
* **C89** A beacon is read as the standard lays it out — An encoder of beacons written from the standard (Spec/Beacon); the accessors of every encoded beacon computed; exact condition by comparing lengths (parity) and by determinism of the iterator.
* **C90** The auxiliary security header is skipped as the standard lays it out — The header length of the standard (Spec/Beacon) compared with the code's for all 256 control octets, lifted to secured beacons and acknowledgments of any content.
* **C91** Reserved bits are ignored on reception — Every getter shown to be a function of the bits that are not reserved; lifted through the readers to FrameRepr::parse, the frame filter of the device, and whole beacons.
* **C92** Channel access is the standard's unslotted CSMA-CA — The algorithm of the standard as an inductive relation on waits and assessments (Spec/CsmaCa); every complete history of transmit_cca shown to be such a run, with the wait put in front, by induction on the history grammar; negation and both differences.
* **C93** The frame filter is the standard's — The filtering rules of the standard (Spec/Filter) compared with the exact characterisation of the code's filter (C43), lifted to what a device hands over in any execution.
* **C94** Acknowledgements are those of the standard — The standard's choice of acknowledgement (Spec/AckKind) compared with every transmission of the receive task in any execution (from the round structure, C44/C65); negation by an execution.
* **C95** A built frame is laid out as the standard prescribes — A function from the calls to octets (Spec/Layout, independent of the model), proved equal to what emit writes, from the exact result of finalize and the emission lemmas of C29; injectivity from the round trip; negation by elements with a payload.
* **C96** What the environment of the build asks for is what the device does — A reader of the generated Rust file (Model/Generated) stands for the compiler; from the exact shape of the file (C53) the constants read are those set, for every environment. The device theorems of C44, C48 and C59 instantiated at the defaults, with the values written out.
* **C97** Parsing loses nothing, and what is left of a frame that was cut short — From the exact re-emission of C61 parsing is injective on frames without elements; the parts of a cut frame are compared with those of the whole by the layout of C05 and C11. Two frames with more elements than fit refute the full claim.
* **C98** A protected frame has one length — The polynomial of a concatenation, divisibility by the generator (C25), and that the generator is coprime to x give the exact criterion at both ends; padding, concatenation and short cuts are corollaries.
* **C99** Reading a beacon never panics — A beacon in parts, whole if each part has the announced length; the accessors inverted bind by bind give the lengths, the parts are cut off one after the other, and the reading of a whole beacon gives the other direction. Cutting and extending follow.
* **C100** How often a package is handed over — what is on the air of every beginning of a history of the transmit task (attempts not followed by a refusal), by induction over the grammar of C48; receptions against deliveries from C70; sums over devices as in C82; C100_once because only a frame with the request bit is awaited an acknowledgement for.
* **C101** Packages are handed over in the order given — the frames on the air as a sublist of the concatenation over the packages, by induction over the grammar of C48 with the lemmas of C100; deliveries as a sublist of receptions from C70; transitivity.
* **C102** What the medium does not lose is handed over — deliveries against the receptions of the receive task from C70, the filter of the receiver keeps all frames of the kind; composed with C101 (nothing skipped). A run in which the transmit task hears two broadcast frames refutes the full claim.

## Trusted base

* Lean's kernel (4.33.0). No axioms are added; nothing rests on compiled evaluation.
* The axioms each theorem of MANIFEST.json depends on (`#print axioms`) are listed at the end.
* The faithfulness of the hand-written model to `/repo`: each definition cites file and lines, and
  simplifications are stated there. As a check, the unit tests of `/repo` are replayed on the model as
  `example`s (lean/Verif/Upstream): the model gives the values the Rust code is tested to give. So are the tests of the futures, mutexes and channels of dot15d4/src/sync, with the executor they use. The eight tests of the CSMA device, with their test radio, are among them: the model produces the expected sequence of radio events, event by event.

### Modelled

| source | model |
|---|---|
| dot15d4-frame/src/frame_control.rs, repr/frame_control.rs | Model/FrameControl |
| dot15d4-frame/src/addressing.rs, repr/addressing.rs | Model/Addressing, Model/Repr |
| dot15d4-frame/src/ie/{mod,headers,payloads,nested}.rs | Model/Ie |
| dot15d4-frame/src/frames/{mod,data,ack,beacon}.rs, aux_sec_header.rs | Model/Frames, Model/Beacon |
| dot15d4-frame/src/repr/** (parse, validate, buffer_len, emit, builder) | Model/Repr, Model/ReprPanic (cargo feature `panic`) |
| dot15d4-frame/src/time.rs, dot15d4/src/time.rs | Model/Time |
| Display implementations of dot15d4-frame | Model/Display (which parts are printed in which order), Model/Text (the characters: numbers as `core::fmt` spells them, times through f32, derived `Debug` of the enums shown) |
| dot15d4-macros/src/lib.rs | Model/Macro (a declaration as data; the accessors the macro generates for it) |
| dot15d4/src/sync/*.rs | Model/Sync (objects and futures as state machines, one step per poll or drop), Model/Reenter (mutex and channel used from inside a waker they call) |
| dot15d4/src/phy/radio/futures.rs, phy/radio/mod.rs | Model/Radio (radio and driver are arbitrary: their answers are quantified over) |
| dot15d4/src/phy/config.rs | Model/PhyConfig |
| dot15d4/src/csma/*.rs | Model/Prog, Model/Csma, Model/CsmaSync (both tasks as programs over calls; every interleaving, answer and cancellation point); Model/Drops, Model/DeviceRadio (the same with the futures of phy/radio/futures.rs and the drops of abandoned calls; not modelled: drops while unwinding from a panic, and the drops of guards when the whole device is dropped, after which its mutexes are not used) |
| dot15d4/build.rs | Model/Build (environment to generated constants, or abort; writing the file cannot fail) |
| csma/user_configurable_constants.rs (include!), csma/constants.rs | Model/Generated (a reader of the generated items stands for the Rust compiler: integer, bool and `Duration::from_us` expressions only) |
| fuzz/fuzz_targets/*.rs | Model/Fuzz (both targets, for any input), Model/Arbitrary (the generators of the inputs of the target repr) |
| dot15d4-cat/src/{lib,main}.rs | Model/Cat (structured lines), Model/Text (the characters of the lines; colours are not modelled) |

### Not modelled

`log`/`defmt` output, `Debug` output other than of the enums that are displayed, performance, real
time, stack use, memory safety of the `unsafe` blocks, the Rust compiler, the handling of tokens in
the procedural macro other than the accessors it generates, the running out of the input of the
fuzzers, `EnhancedAck::check_len` and `DataFrame::set_aux_sec_header` (both `todo!()`, the former
without a caller), the three sets of flags for RCC capabilities (ie/headers.rs:457-560: constants
that nothing refers to), and the crates `crc`, `bitflags`, `heapless`, `rand_core`
and `embedded-hal-async` except for the behaviour stated where they are used.

### Assumptions made in theorem statements

* Radio and driver may behave in any way when polled; a transmission does not modify the buffer; the
  frame format (the `RadioFrame` traits) is lawful where a theorem says so: the octets of a frame are
  part of the buffer, the same at each access.
* Devices are `Sane` where a theorem says so (constants that do not overflow, lawful format).
* Two-device theorems (C65, C69, C70): a reception delivers the octets the other device transmitted.
* Networks (C78, C79, C80): a frame is received only after another device of the network began to
  transmit exactly it; loss, delay, reordering, duplication and noise that is no frame are allowed.
* `deviceWorld` (C49, C57, C66): one waker, polls are not re-entrant.
* `usize` has 64 bits where it matters.

### Axioms

* none: C06_repr_emit_unimplemented, C51_defaults, C51_distinct, C52_conversions, C52_mul_false, C76_mutex_false, C76_two_senders, C41_yield_now, C42_after_completion
* `propext`: C04_2006_needs_address, C04_pan_presence, C04_reserved_mode_accepted, C07_absent, C07_group_count, C08_broadcast, C08_kinds, C20_short, C28_absent_needed, C28_false, C47_truncated, C51_numbers, C52_div_false, C52_there_and_back, C64_default, C76_channel_false, C76_mutex_panics_iff, C39_select, C40_join_fused
* `propext`, `Quot.sound`: C01_new_iff, C02_bool_setters_false, C03_unknown_not_preserved, C05_reserved_mode_len_panics, C06_write, C06_write_none, C07_bad_digits_panic, C07_display_injective, C07_parse_display, C08_from, C08_to_short, C13_elements_panic, C13_false, C13_frame_panics, C14_false, C16_false, C17_false, C18_false, C19_nested_only_mlme, C22_default_emit, C22_read_panics_iff, C23_no_links_panic, C24_csl_panics, C24_false, C24_sizes, C27_linear, C29_false, C31_false_slotframe, C31_false_timeslot, C31_fuzz_corpus, C31_timeslot_hazard_exact, C33_direction, C33_orders, C34_false, C34_level4, C34_level_bit, C34_levels_partial, C34_no_confidentiality, C43_false, C44_ack_bytes, C45_false_no_destination, C46_zero, C47_increment_panics, C47_shift_panics, C48_zero, C54_false, C57_exclusive, C57_generator, C57_protocol, C59_calls, C59_channel, C60_false, C60_gaps, C61_false, C62_validate, C63_false, C64_setters, C65_in_time, C67_false, C68_false, C68_tables, C71_false, C71_same, C71_unknown_partial, C76_channel_partial, C76_mutex_partial, C77_answers, C77_recording, C83_never_full, C83_unknown_mode_crashes, C85_four_flips, C86_false, C87_false, C90_exact_partial, C90_false, C90_reported, C91_directions, C91_link_options, C91_security, C97_false, C99_false, C35_acquire_iff_free, C35_at_most_one_guard, C35_exclusive_access, C35_last_write, C35_stable, C36_free_means_woken, C36_guard_drop_wakes, C36_waiters_not_forgotten, C37_memory_safe, C37_nothing_lost_silently, C37_one_place_buffer, C37_received_subsequence, C38_false_two_receivers, C38_receiver_woken, C38_send_wakes_receiver, C38_senders_woken, C39_either, C42_cancel_count, C42_cancelled_iff_abandoned, C84_false
* `propext`, `Classical.choice`, `Quot.sound`: C01_decode_injective, C01_getters_decode, C02_bool_setters_or_partial, C02_enum_setters, C02_unknown_values, C03_emit_injective, C03_emit_parse, C05_layout, C05_new_iff, C06_roundtrip, C07_accepted_texts, C09_new, C09_new_total, C100_bounded, C100_once, C101_handed, C101_in_order, C101_none_skipped, C101_sent, C102_delivered, C102_dropped, C102_false, C102_handed_partial, C102_listener, C10_accessors, C11_split, C12_enhanced_beacon, C13_accessors_partial, C13_exact_partial, C13_secured_partial, C14_dispatch_partial, C14_into, C15_new_total, C15_offset, C15_partition, C16_fields_partial, C16_id_then_length, C16_length_then_id, C17_fields, C17_fields_partial, C17_termination_never_read, C18_fields, C18_fields_partial, C18_kind, C18_stale_type, C19_nested_iteration, C20_correction_clears_nack, C20_out_of_range, C20_reader_range, C20_roundtrip, C21_read, C21_roundtrip, C21_roundtrip_in_range, C22_default, C22_roundtrip, C22_write, C23_contents, C23_false, C23_reads_encoding_partial, C23_reads_safe, C24_cfp, C24_codebase_partial, C24_csl, C24_gts_direction, C24_layout_partial, C24_readings, C24_vendor_oui, C25_accepts_iff, C25_append, C25_remainder, C25_unchecked, C26_burst, C28_accepts_iff, C28_consistent_partial, C28_panics_iff, C29_elements_payload_panics, C29_roundtrip_partial, C30_emit_partial, C30_header_element, C30_header_termination2_unreadable, C30_nested_element, C30_payload_element, C30_payload_termination_panics, C30_roundtrip_partial, C31_fuzz_target, C31_outcomes, C31_panics_iff, C31_parse_returns_partial, C31_slotframe_hazard_panics, C32_pending_addresses, C32_sections, C33_read, C43_filter_default, C43_filter_partial, C43_unknown_kinds, C44_decision, C44_device, C44_sniffer_acks, C45_ack_bit_partial, C45_false, C45_invalid, C46_transmit_cca, C47_bound, C47_pauses, C48_device, C48_package, C49_gets_radio, C49_starves, C49_woken, C50_overwrite, C51_read, C52_add_sub, C52_div_exact, C52_div_partial, C52_mul_partial, C53_aborts, C53_defaults, C53_definitions, C53_documented_name_aborts, C53_documented_partial, C53_false, C53_watched, C54_decodable, C54_exact, C54_hex, C55_hamming, C55_odd, C56_directions, C56_false, C56_no_slots, C56_slot_partial, C56_slots_panic, C56_slots_partial, C58_polled, C58_runs_forever, C60_elements, C60_elements_flag, C60_elements_panics_iff, C60_emit_fills_or_panics, C60_emit_partial, C60_fuzz_target, C60_fuzz_target_elements, C60_injective, C60_panics_iff, C60_security_panics, C60_termination_panics, C61_elements_corrupted, C61_reemit_partial, C61_written_partial, C63_accepted_partial, C63_frame_control, C63_header, C63_names, C63_nested, C63_payload, C63_tsch, C64_false, C64_new, C64_roundtrip_partial, C65_ack_means_received, C65_exchange, C66_never_deaf, C66_no_deadlock, C67_no_loss_partial, C67_parse_iff, C67_too_many, C68_read_partial, C68_read_small_partial, C68_unknown, C68_write, C69_end_to_end_partial, C70_false, C70_in_order_partial, C71_too_many, C72_false, C72_header_length, C72_ht2, C72_nested_false, C72_nested_partial, C72_payload_misread, C72_read_partial, C73_defaults, C73_steps, C73_time, C74_all, C74_beyond, C74_duration, C74_elements, C74_instant, C74_ties, C75_header, C75_lines, C77_channel, C77_radio, C78_false, C78_received_partial, C79_no_creation, C80_quiet, C80_transmissions, C81_content_mut, C81_header_element, C81_nested_element, C81_payload_element, C82_device, C82_network, C82_total, C83_blind, C83_crashes, C83_frames, C83_refuses, C83_timeslots, C85_built, C85_exists_unique, C85_unchanged_or_rejected, C86_collision, C86_pauses, C86_sequences, C86_uniform_partial, C87_exact, C87_flags_are_merged, C87_rest_partial, C87_reuse, C88_appended_partial, C88_false, C88_header_elements, C88_payload_elements, C88_shortened, C89_descriptors, C89_exact, C89_false, C89_payload_missed, C89_slot, C89_swapped_partial, C90_ack, C90_beacon, C90_beacon_right, C90_beacon_wrong, C91_beacon, C91_frame, C91_gts, C91_pending, C91_receiver, C91_superframe, C91_time_correction, C92_differences, C92_false, C92_standard_partial, C93_addressed_partial, C93_beacons, C93_device, C93_false, C93_sound, C93_unaddressed, C94_acks_partial, C94_every, C94_false, C95_exact, C95_false, C95_injective, C95_layout_partial, C95_table, C96_constants, C96_defaults, C96_literals, C96_receives, C96_rejects, C96_transmits, C97_cut, C97_cut_differs, C97_cut_filter, C97_cut_refused, C97_injective_partial, C98_behind, C98_concatenated, C98_false, C98_front, C98_noticed_partial, C98_padding, C99_appended, C99_cut, C99_exact_partial, C99_panics, C99_whole, C40_join, C84_account_partial, C84_always, C84_clean, C84_once
