# Formal model of knx-ip-client (Lean 4) — design

## 1. Layout

    lean/Verif/Model/*.lean   executable model, one file per Rust file or part of one; every definition cites file:lines
    lean/Verif/Spec/*.lean    vocabulary of the properties, independent of the model's functions: KNX wire formats,
                              text grammar, DPT 9 values, predicates and counters over observation traces
    lean/Verif/Lemmas/*.lean  helper lemmas: step relations, invariants, building blocks for concrete runs
    lean/Verif/Props/*.lean   the property theorems, named after the property (C01_..., C02_..., ...)
    properties.jsonl          the properties in English
    MANIFEST.json             which theorems establish which property, and what is missing or refuted
    seeded/LOG.jsonl          wrong programs the theorems were tested against

## 2. Modelling conventions

* `u8/u16/u32/i16` are `BitVec n`; `as` casts are `setWidth`; byte strings are `List (BitVec 8)`.
* `Result<_, Whatever>` plus panics is `Res α = ok a | err | panic`. Error messages are
  modelled separately, in `Model/Texts.lean` and `Model/PacketTexts.lean`: the same readers and parsers with the texts of their errors; `Lemmas/Texts.lean` and `Props/Layouts.lean` prove that
  without the texts they are the functions of the model.
* Overflow: Rust panics in debug builds and wraps in release builds. Every function that can overflow takes
  a `Mode` (`debug | release`); theorems quantify over both modes.
* `Cursor<&[u8]>` is the list of bytes not yet read. `Read::read` into a zeroed `Vec` (short reads leave zeros) is
  modelled exactly (`Rd.fill`), as are `read_exact`, `read_u8`, `read_u16`.
* `usize` is 64 bit; `vec![0; n]` with `n > isize::MAX` panics (capacity overflow).
* `f32` is NaN, ±inf or an exact rational, every operation being rounded to nearest even in binary32 (with gradual
  underflow and overflow). The sign of zero and NaN payloads are not modelled; a finite value may be any rational,
  so universally quantified theorems cover a superset of the `f32` values.
* The async code is a labelled transition system `step : State → Event → Option (State × List Obs)`. Events are the
  choices of the environment and of the scheduler: which datagram arrives, whether a send fails, when the heart beat
  or a timeout fires, when a caller calls, or drops a future, or drops the object, how much time passes. One step is
  the code between two await points that touch shared state. Every step yields observations (`Obs`: datagrams
  received and sent, calls, results, connection set and cleared, telegrams queued and taken, ...). `Exec m s tr`
  says that state `s` can be reached with the observations `tr`; the properties are about all such `tr` (and `s`),
  that is, about all finite executions, without any bound.
* Time is a millisecond clock. Timers never fire early, but they may fire late; theorems which need timers to fire on
  time (upper time bounds and the timing refutations) are about `PromptRun`/`MPromptRun`, where time does not pass
  beyond a deadline somebody waits for.
* The network is arbitrary: any datagram may be received at any time, so loss, duplication, reordering, forging and
  a misbehaving gateway are covered. The kernel's socket buffer is not modelled as such.
* Locks: in `Model/Client.lean` and `Model/Monitor.lean` a call starts when it has got the transport lock;
  `Model/Callers.lean` adds any number of callers waiting for it in line (tokio mutexes are fair), and C77 shows that this
  refines the model with a single caller. The connection-data lock is
  modelled where it is held across an await (`connLocked`).

## 3. How properties are stated and proved

A property which holds is one or more theorems over all inputs, modes, and executions. Byte-level statements compare the
model with encoders and decoders of `Spec/`, written from the KNX wire formats. Statements about executions use
counters and selectors over the trace of observations (`Spec/Trace.lean`: what was received, sent, acknowledged,
queued, taken, which connection is up, ...), never the model's program counters, and are proved by invariants:
`BgTr`, `ApiTr`, `MApiTr` (one constructor per kind of step) relate a step of the model to its observations, every
invariant is an induction over the execution with a case per constructor.

A property which is false of the code is status `partial`: `Cnn_..._partial` proves the strongest correct part found,
`Cnn_violated...` refutes the statement, where possible for a whole family of inputs, states or run lengths and
not just for one run, and `Cnn_exact`/`_iff` says exactly when it fails. Beside the theorems, `example`s exhibit
concrete cases meeting the hypotheses.

Methods per group: C01-C06 bit extensionality, grammar soundness and completeness by induction on the text. C07-C31 case
analysis over arbitrary byte lists, decoders inverted on spec encoders, induction on the lists of blocks. C32-C40
arithmetic, binary32 error analysis |fl(x)-x| <= 2^-24 |x|, loop invariants of the DPT 9 encoder. C41-C52, C61-C70,
C73 invariants of the background task, shared by client and monitor (`GExec`). C53-C59, C71, C72, C74-C76
invariants of the call in progress. C60 induction over the events of the search. C77, C78 refinement of the model
with many callers to the one with a single caller, by simulation. C79-C81 as C32-C40. C82-C84 composition of the
encoder, sender, interface (`Spec/Bus.lean`), receiver and decoder theorems along runs of two programs.
C85 unique reading of the printed text, line by line, on top of C60. C86, C87 induction over executions of the client and of
a program next to it. C88 an invariant relating the numbers drawn and the requests sent on a connection, composed with
an automaton of the server's side written from the standard (`Spec/Gateway.lean`). C89 a continuation constructed for every
reachable state, by cases on where the task waits; its other side by induction over runs. C90 an invariant that remembers
when a call looked the connection up. C91 an invariant on consecutive actions of the task. C92 an invariant on the
endpoints named in what is sent, composed with a rule for the answers of the server. C93 the same for the search, by C60. C94 counting invariants on grants, give-ups and
disconnect requests, composed with a rule for the book-keeping of the server. C95 an invariant of
the blocked states, preserved by all events but two; reachability by induction on the capacity. C96 an invariant on the
number of unanswered connect requests; the refutation by induction on the number of repetitions.

 C97 by following a telegram through the three places that pad it, composed with C82, C61 and C43.
 C98 an invariant of the constructors, C48 and an invariant of the calls made without a connection.
 C99 from the counting invariants of C43 to C45 and C68; the blocked state by induction on runs.
 C100 by simulation: the system without the dropped call follows the system with it, step by step.
 C101 by a counting invariant of the task (a telegram received is being worked on, queued, or lost to a counted event), one of the attempts and one of the calls.
 C102 compares the frame of every telegram with the frame of the standard, written out in `Spec/Services.lean`; the comparison is an equivalence.
 C103 composes C36 (encoding), C40 (transport) and C35 (decoding) to one statement about a temperature sent and received.
 C104 by a potential: the time left until the connection is there, bounded in every state of the task and kept by every step of every schedule.
 C105 by an invariant of the states between the arrival of a telegram and the return of the call: in none of them time can pass.
 C106 by comparing the decoder on the padded receive buffer with the frames of the standard; the acceptance condition is an equivalence.
 C107 by a bisimulation: the two tasks agree on all but what calls can change, and every step of the one is a step of the other with the same effects.
 C108 compares what C61 says is shown with the frames as they are on the wire, written out in `Spec/BusFrames.lean`.
 C109 by an invariant counting registrations, connections, and notifications sent and still to be sent.
 C110 by an invariant that relates the heart beat on its way, as seen in the trace, to the lock; the refutation is an induction over all runs in which it stays on its way.
 C111 by evaluating the readers, with their texts, on the eight bytes of the header; numbers as texts are shown injective.
 C112 by case analysis of the step in which a call returns, with the invariants about calls (C55-C59); texts are told apart by their first characters.
 C113 by case analysis of the parts of the text (induction over texts for numbers and for splitting); messages are told apart by their first 21 and last 4 characters.
 C114 by evaluating the decoders on the possible lengths; the phrases of the messages are a table in the specification.
 C115 by an invariant with three phases (request not sent, not replied to, reply on its way) over the runs of a replying server; that it goes on by induction over the work left.
 C116 by induction over the runs of a program, with the invariant of C115 for each call and the state of rest between two calls.
 C117 by an invariant over the runs with callers (nobody holds the lock and the client is at rest, or the call that does is in a phase of C115), and by induction over the runs for the bound.
 C118 by finding the highest bit with an induction over the loop and bit extensionality for the rest; below one hundredth by induction over the binary places, whose doubling is shown to need no rounding.
 C119 by a potential function (what has been set off and not been sent, and the time until the next connect request) that no transition lowers by more than it receives.
 C120 by a simulation in both directions: every step of the task is at most one move of the specification, and every move is made by a few steps that lead back to a state of the same kind.
 C121 by induction over the runs of the task and the call, with the invariants about the connection and its numbers (C46, C48).
 C122 and C123 by induction over the executions with the invariants about calls; the refutations by induction over the number of reads or writes.
 C124 by the exact description of the decoded telegrams (C12) and C43, C45; C125 by induction over the runs with the invariant about the subscribers (C62); the refutations by induction over the number of datagrams or subscriptions.
 C126 by induction over the executions with an invariant relating the state of the API to what the call in progress has done; conversely by constructing, by induction over the story, an execution for each.
 C127 by a characterization of what each block reader does with the octets there are (exact lengths), composed for the whole response, and by induction over the run of the search; the texts are told apart by their first 16 characters and the injectivity of numerals.
 C128 as C126, with one automaton for the calls that use the transport of a monitor and one for each caller of `next_msg`; both are invariants of all executions, and each story is driven through the model.
 C129 by a relation between the results of both builds (the debug result is a panic or the release result) that is closed under the sequencing of readers, by induction over the executions with the invariant that no telegram on which the builds differ is in the hands of the task or of a call, and by constructing a release execution for each exception, which the stories of C126 and C128, or an invariant of the debug build, exclude.
 C130 by a simulation: states that differ only in what the task is about to acknowledge, with the same outcome, step alike; by an inversion of what the task was last seen to do; and by an execution for each effect.
 C131 by a relation between readers and lists of entries that is closed under sequencing; the message is a function of the fault, and messages of different faults are told apart because their openings, computed for each layout, diverge; for cEMI frames by induction over the octets.
 C132 by a property of readers, not to depend on what they leave, that is closed under sequencing, and by induction over the entries of a layout; tunnelling requests by splitting off the part before the cEMI.
 C133 by the exact descriptions of what each decoder accepts (C16-C28), compared with the encoders; lengths tell the packets apart that are never the same.
 C134 by a closed form of the decoded number, whose rounding error is less than half the distance of two such numbers, and by the monotonicity of both roundings of the encoder; different exponents by comparing with the limit between them.
 C135 by comparing the first four octets, which tell all kinds apart but two, and then the parts of each kind from the end, which have fixed lengths; lists of service families by induction.
 C136 by closed forms of the numbers that are written (destinations, the ten bits of a service) and comparison from the front; the padding of a description block is told from its content by the parity of its length octet; lists by induction.
 C137 from C05 by induction on the digits of a numeral.
 C138 by the inverse of each decoder: packets with the same result differ only in what the inverse leaves free, and a packet with these octets replaced has the same result.
## 4. What is modelled and what is not

Modelled, function by function:

* `src/packets/addresses.rs`, `apdu.rs`, `tpdu.rs`, `emi.rs`, `core.rs`, `tunneling.rs`: every constructor, encoder, decoder, and
  text conversion.
* `src/dp_types.rs`: every data point type, its constructors, `from_bytes`, `get_value`, `get_bytes`, `is_small`.
* `src/transport/udp.rs`: `UdpTransport::connect` (socket, name resolution and the spawned task), `connect`, `try_connection`,
  `handle_recv_from_knx_device`, `parse_response`, all methods of `UdpClient` with the transport methods they use,
  `search`.
* `src/transport/udp_monitor.rs`: the constructor, the spawned task, `enable_busmonitor`, all methods of `UdpMonitor`.
* The transport lock of both objects with the tasks waiting for it (`Model/Callers.lean`).
* `src/main.rs`: the statements that are not commented out, as a program of sleeps and calls next to the background task
  (`Model/Sample.lean`, for any such program); `examples/discover.rs` with the text it prints (`Model/Discover.lean`).
Not modelled:

* `source()` of errors, the texts the standard library and `snafu` make for `{:?}` of their errors
  (parameters of the theorems, `StdText`), logging (except that an enabled `debug!` evaluates its argument in `UdpTransport::disconnect`),
  `Debug`/`Display` output other than that of addresses and of the discovery example;
* how the operating system binds and connects sockets and resolves names: its answers are events (`Model/Construct.lean`);
* the tokio runtime: tasks are assumed to keep being scheduled; the interval, timeout, mutex, mpsc and select semantics
  are those of its documentation (a late interval tick uses `MissedTickBehavior::Delay`, more than 5 ms counting as
  late);
* memory exhaustion; the ISO 8859-1 codec of the `encoding` crate is modelled as "code points up to U+00FF";
* `UdpTransport::set_feature` and `UdpMonitorTransport::set_feature` are not reachable through the public API; they are modelled on
  their own, next to the background task (`Model/Feature.lean`). The ten unit tests of the crate are not part of the model, but each has been run in it
  (`Props/UnitTests.lean`) with the result the test expects.

## 5. Trusted base

* Lean 4.33.0's kernel.
* The axioms `propext`, `Classical.choice`, `Quot.sound` of Lean's standard library; which theorem uses which is listed
  below. No axioms were added; there is no `sorry`, `admit`, `native_decide` or `bv_decide`.
* Mathlib only as a library of kernel-checked definitions and theorems.
* That the definitions in `lean/Verif/Model` say what the Rust source says (section 2 and the citations there). They were
  written from the source by hand and compared with it line by line twice; nothing was extracted mechanically.
* That the definitions in `lean/Verif/Spec` and the statements in `lean/Verif/Props` mean what `properties.jsonl` says.

### Axioms of the property theorems (output of `#print axioms`)

* none (1):
  C40_byte_panics
* propext (5):
  C19_bodies C19_codes C22_answer C24_featureResp_exact C31_friendly_name_total
* propext, Quot.sound (113):
  C03_codes_partial C03_group2_actual C03_group2_violated C05_parser_exact C06_group3_parsers_agree C07_apdu_bytes
  C07_read_write_distinct C07_typed_bytes C08_write_panics_iff C09_layout_any C100_violated_confirmation
  C100_violated_value C100_waiting_unseen C101_violated_disconnect C101_violated_status C102_services
  C102_violated_individual C102_violated_service C104_tight C108_violated_standard C10_exact C10_length_octet_partial
  C10_violated C124_exact C124_honest_partial C124_telegram C12_accepts C12_cemi_exact C130_decoded C130_one
  C130_seen_only C133_search_iff C133_state_iff C133_tunnel_again C133_tunnel_iff C133_violated_disconnect
  C133_violated_feature C135_alike C135_encoded C135_iff C135_partial C135_violated_address C135_violated_device
  C135_violated_feature C135_violated_status C136_blocks_iff C136_violated_block C136_violated_device
  C136_violated_group C136_violated_transport C136_violated_value C138_disconnect_iff C138_feature_iff C138_search_iff
  C138_state_any C138_state_iff C138_tunnel_iff C138_violated_state C138_violated_tunnel C13_cemi_panic_iff
  C15_lDataCon C16_header_hpai C17_state_messages_roundtrip C18_bound_is_exact C18_tunneling_roundtrip
  C19_sent_frames_wellformed C20_no_panic_partial C20_panics_iff C20_violated C21_dispatch_exact
  C22_disconnect_request_rejected C22_violated C24_disconnectRequest_violated C24_featureResp_violated
  C24_searchResponse_exact C25_feature_response C26_search_request C28_exact_manufacturer C28_violated C29_violated
  C31_friendly_name C41_datagram_exact C45_blocks C47_monitor_violated C47_violated C47_violated_twice C49_malformed
  C49_only_way C54_violated_read C55_returns C56_violated_indication C56_violated_negative C58_loss C58_swallows
  C62_blocks C62_proceeds C66_monitor_violated C66_violated C66_violated_write C77_client_as_one C77_monitor_as_one
  C77_order C78_ahead_partial C78_early_monitor_partial C78_early_partial C80_violated C82_violated_individual
  C93_answerable_iff C95_resumes_partial C98_built C98_failed_partial C98_monitor_built C98_monitor_failed_partial
* propext, Classical.choice, Quot.sound (432):
  C01_individual_u16_roundtrip C02_group3_u16_roundtrip C03_injective C04_print_parse C07_same_iff
  C09_default_priority C09_lDataReq_layout C100_keeps C100_monitor_unseen_partial C100_next_keeps C100_next_unseen
  C100_unseen_partial C100_violated_number C101_all C101_client_partial C101_monitor_partial C101_violated_connect
  C102_exact C102_partial C102_same_iff C103_arrives_partial C103_room_partial C103_violated_20_48
  C103_violated_below_zero C103_violated_hot C103_violated_min C103_violated_zero C104_after_loss C104_connects
  C104_goes_on C104_start C104_start_monitor C105_call C105_next_msg C106_connect_exact C106_exact C106_same
  C106_violated_connect C106_violated_long C106_violated_short C106_whole_partial C107_client C107_monitor
  C107_unattended C107_unattended_monitor C108_extended_partial C108_indication_partial C108_standard_addresses
  C108_standard_exact C108_violated_control C109_not_more C109_subscribe_then_ask_partial C109_told C109_violated
  C110_exact C110_monitor C110_violated C111_disconnect_exact C111_disconnect_iff C111_partial C111_search_violated
  C111_status_exact C111_status_iff C111_violated C112_client_partial C112_late C112_monitor_partial
  C112_monitor_violated C112_next C112_write_violated C113_flaw C113_iff C113_partial C113_violated C114_exact
  C114_int C114_partial C114_placeholder C114_violated C115_goes_on C115_succeeds C116_goes_on C116_results
  C117_goes_on C117_in_time C117_results C118_exact C118_large_partial C118_nothing C118_tiny C118_total
  C118_violated_large C118_violated_negative C118_violated_small C118_violated_tiny C118_wraps C119_client
  C119_client_all C119_monitor C119_monitor_all C119_size C119_tight C119_window C11_write_decodes_big
  C11_write_decodes_small C120_complete C120_iff C120_refines C121_mixed C121_sent C121_sets C122_count C122_exact
  C122_own_partial C122_violated C123_count C123_exact C123_own_partial C123_violated C124_bounded_partial
  C124_violated C125_bound_partial C125_exact C125_forgotten_partial C125_violated C126_diary C126_every C126_exact
  C127_exact C127_iff C127_other C127_says C128_call_exact C128_caller C128_caller_exact C128_calls C128_every_call
  C128_every_caller C129_client C129_client_differs C129_client_until C129_encoder C129_functions C129_monitor
  C129_monitor_differs C129_monitor_until C129_search C130_iff C130_same C130_seen C130_shown C131_cemi C131_exact
  C131_iff C131_partial C131_search C131_violated_ack C131_violated_cemi C131_violated_dib C131_violated_feature
  C131_violated_version C132_cemi_cut C132_cemi_followed C132_cut_partial C132_dib C132_enough C132_followed_exact
  C132_followed_partial C132_response C132_search_cut C132_search_followed C132_tunnel_cut C132_violated_cemi
  C132_violated_cut C132_violated_followed C133_addresses_iff C133_blocks_again C133_blocks_partial C133_dib_iff
  C133_same_partial C133_violated_connect C133_violated_manufacturer C133_violated_response C134_decode_iff
  C134_decode_partial C134_percent C134_room_partial C134_violated_exponent C134_violated_minimum
  C134_violated_written C134_written_partial C135_address C136_apdu_iff C136_datagram_partial C136_partial
  C136_read_write C136_request_iff C137_iff C137_shortest C137_zeros C138_any C138_connect_iff C138_partial
  C14_lDataInd_total C19_from_response C23_accept_reject C23_connect_response C24_connectionResponse_violated
  C24_searchResponse_violated C27_search_response C27_search_response_sound C28_dib_roundtrip_partial
  C28_exact_addresses C29_dib_panics_iff C29_release_never_panics_partial C29_search_panics_iff C30_dib_even C32_bit
  C32_byte_types C32_ulong C32_word_int C33_b1u3 C34_exact C34_percent_partial C34_violated C35_decode_exact
  C35_decode_partial C35_exponent_violated C35_length C35_min_mantissa_violated C36_20_48_violated
  C36_accuracy_partial C36_arithmetic C36_boundary_violated C36_conversion C36_encode_exact C36_minus_zero_violated
  C36_range_violated C36_rounding C36_small_negative_violated C37_iff C37_nan C37_terminates_partial C37_violated
  C38_roundtrip C39_accuracy C39_monotone C39_roundtrip C39_saturates C39_zero C40_typed_value_arrives C42_acks
  C42_none_missing C43_fifo C44_exact C44_loss_bound C44_no_loss_partial C44_violated C45_bounded C46_sequence
  C47_monitor_numbers C47_monitor_paired_partial C47_numbers C47_paired_partial C48_granted C48_refused C50_iff
  C50_progress C50_survives_partial C50_violated C51_connected_iff_partial C51_violated C51_violated_is_connected
  C52_reasons_partial C52_violated C53_value C54_fresh_partial C54_violated C55_bound_partial C55_not_early
  C55_violated C56_first_decides C56_ok_partial C57_ok_partial C57_violated C58_status C59_returns C59_silent
  C60_all_partial C60_exact C60_lasts C60_violated_discards C60_violated_leftover C60_violated_long C61_caller
  C61_progress C61_results C62_notified C62_registered C63_enabled C63_numbers C64_per_copy_partial C64_violated
  C65_channel_partial C65_violated C66_monitor_once_partial C66_monitor_violated_send C66_once_partial
  C67_silent_partial C67_violated C67_violated_beats C67_violated_reconnects C68_at_least C68_rate C68_ready
  C68_spacing C68_tight C69_patient C69_pause C69_rate_partial C69_soon C69_violated C70_client C70_monitor C70_task
  C71_not_early C71_write_bound C72_status_partial C72_violated_disconnect C72_violated_monitor C72_violated_status
  C73_client C73_monitor C74_disconnect C74_is_connected C74_subscribe C74_telegram C75_client C75_monitor C75_next
  C76_client C76_disconnect_panics C76_long_panics C76_monitor C76_next C76_write_panics C77_client_own
  C77_monitor_own C77_read C77_turns C78_cancel_partial C78_violated C78_violated_monitor C79_labels_partial
  C79_violated_b1u3 C79_violated_ulong C80_short_partial C80_violated_range C81_decode_partial C81_encode_partial
  C81_violated_decode C81_violated_encode C82_partial C82_violated C83_exact C83_from_monitor C83_monitor_exact
  C83_monitors C83_partial C83_violated C84_partial C84_violated_monitor C84_violated_status C85_exact C85_injective
  C85_partial C85_violated_discards C85_violated_name C86_monitor C86_per_call C87_outcome C87_sample_result_partial
  C87_sample_sends C87_sleeps C87_violated_error C87_violated_hangs C88_accepted_partial C88_gap C88_lost
  C88_monitor_accepted_partial C88_monitor_lost C88_violated C88_violated_unsent C89_ended C89_monitor_ended
  C89_monitor_next_partial C89_monitor_violated C89_monitor_write_partial C89_read_partial C89_violated
  C89_write_partial C90_client_partial C90_monitor_partial C90_violated_disconnect C90_violated_monitor
  C90_violated_status C91_faults C91_next C92_connect_partial C92_monitor_named_iff C92_monitor_violated C92_named_iff
  C92_violated C93_sent C93_violated C94_left_partial C94_violated C95_stall C95_violated C96_own_partial C96_violated
  C97_exact C97_monitor_partial C97_read_partial C97_violated_long C97_violated_short C98_violated
  C98_violated_forever C98_violated_monitor C99_burst_partial C99_violated C99_violated_minute
