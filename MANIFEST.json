{
 "claims": [
  {
   "property": "C01",
   "status": "proved",
   "theorems": [
    "Knx.C01_individual_u16_roundtrip"
   ],
   "note": ""
  },
  {
   "property": "C02",
   "status": "proved",
   "theorems": [
    "Knx.C02_group3_u16_roundtrip"
   ],
   "note": ""
  },
  {
   "property": "C03",
   "status": "partial",
   "theorems": [
    "Knx.C03_codes_partial",
    "Knx.C03_group2_violated",
    "Knx.C03_group2_actual",
    "Knx.C03_injective"
   ],
   "note": "Proved for individual, three-level and one-level addresses. Refuted for two-level addresses: the code uses main*256+sub instead of main*2048+sub (C03_group2_violated, C03_group2_actual)."
  },
  {
   "property": "C04",
   "status": "proved",
   "theorems": [
    "Knx.C04_print_parse"
   ],
   "note": ""
  },
  {
   "property": "C05",
   "status": "proved",
   "theorems": [
    "Knx.C05_parser_exact"
   ],
   "note": ""
  },
  {
   "property": "C06",
   "status": "proved",
   "theorems": [
    "Knx.C06_group3_parsers_agree"
   ],
   "note": ""
  },
  {
   "property": "C07",
   "status": "proved",
   "theorems": [
    "Knx.C07_same_iff",
    "Knx.C07_apdu_bytes",
    "Knx.C07_typed_bytes",
    "Knx.C07_read_write_distinct"
   ],
   "note": ""
  },
  {
   "property": "C08",
   "status": "proved",
   "theorems": [
    "Knx.C08_write_panics_iff"
   ],
   "note": ""
  },
  {
   "property": "C09",
   "status": "proved",
   "theorems": [
    "Knx.C09_lDataReq_layout",
    "Knx.C09_default_priority",
    "Knx.C09_layout_any"
   ],
   "note": ""
  },
  {
   "property": "C10",
   "status": "partial",
   "theorems": [
    "Knx.C10_length_octet_partial",
    "Knx.C10_exact",
    "Knx.C10_violated"
   ],
   "note": "Proved up to 253 payload bytes, exact behaviour characterised for every length (C10_exact), refuted beyond (C10_violated: 254 bytes panic in debug)."
  },
  {
   "property": "C11",
   "status": "proved",
   "theorems": [
    "Knx.C11_write_decodes_big",
    "Knx.C11_write_decodes_small"
   ],
   "note": ""
  },
  {
   "property": "C12",
   "status": "proved",
   "theorems": [
    "Knx.C12_cemi_exact",
    "Knx.C12_accepts"
   ],
   "note": ""
  },
  {
   "property": "C13",
   "status": "proved",
   "theorems": [
    "Knx.C13_cemi_panic_iff"
   ],
   "note": "Termination: the model function is total by well-founded recursion on the unread bytes."
  },
  {
   "property": "C14",
   "status": "proved",
   "theorems": [
    "Knx.C14_lDataInd_total"
   ],
   "note": ""
  },
  {
   "property": "C15",
   "status": "proved",
   "theorems": [
    "Knx.C15_lDataCon"
   ],
   "note": ""
  },
  {
   "property": "C16",
   "status": "proved",
   "theorems": [
    "Knx.C16_header_hpai"
   ],
   "note": ""
  },
  {
   "property": "C17",
   "status": "proved",
   "theorems": [
    "Knx.C17_state_messages_roundtrip"
   ],
   "note": ""
  },
  {
   "property": "C18",
   "status": "proved",
   "theorems": [
    "Knx.C18_tunneling_roundtrip",
    "Knx.C18_bound_is_exact"
   ],
   "note": "C18_bound_is_exact shows what happens beyond the bound."
  },
  {
   "property": "C19",
   "status": "proved",
   "theorems": [
    "Knx.C19_from_response",
    "Knx.C19_codes",
    "Knx.C19_sent_frames_wellformed",
    "Knx.C19_bodies"
   ],
   "note": ""
  },
  {
   "property": "C20",
   "status": "partial",
   "theorems": [
    "Knx.C20_panics_iff",
    "Knx.C20_violated",
    "Knx.C20_no_panic_partial"
   ],
   "note": "Refuted: exactly the tunneling requests declaring a total length below 10 panic (C20_panics_iff)."
  },
  {
   "property": "C21",
   "status": "proved",
   "theorems": [
    "Knx.C21_dispatch_exact"
   ],
   "note": ""
  },
  {
   "property": "C22",
   "status": "partial",
   "theorems": [
    "Knx.C22_violated",
    "Knx.C22_disconnect_request_rejected",
    "Knx.C22_answer"
   ],
   "note": "Refuted: no byte string is decoded as a disconnect request (C22_violated), every well-formed one is an error (C22_disconnect_request_rejected). Only the encoding of the answer holds (C22_answer)."
  },
  {
   "property": "C23",
   "status": "proved",
   "theorems": [
    "Knx.C23_connect_response",
    "Knx.C23_accept_reject"
   ],
   "note": ""
  },
  {
   "property": "C24",
   "status": "partial",
   "theorems": [
    "Knx.C24_searchResponse_violated",
    "Knx.C24_searchResponse_exact",
    "Knx.C24_connectionResponse_violated",
    "Knx.C24_featureResp_violated",
    "Knx.C24_featureResp_exact",
    "Knx.C24_disconnectRequest_violated"
   ],
   "note": "Refuted for all four messages, for every value."
  },
  {
   "property": "C25",
   "status": "proved",
   "theorems": [
    "Knx.C25_feature_response"
   ],
   "note": ""
  },
  {
   "property": "C26",
   "status": "proved",
   "theorems": [
    "Knx.C26_search_request"
   ],
   "note": ""
  },
  {
   "property": "C27",
   "status": "proved",
   "theorems": [
    "Knx.C27_search_response",
    "Knx.C27_search_response_sound"
   ],
   "note": ""
  },
  {
   "property": "C28",
   "status": "partial",
   "theorems": [
    "Knx.C28_dib_roundtrip_partial",
    "Knx.C28_violated",
    "Knx.C28_exact_addresses",
    "Knx.C28_exact_manufacturer"
   ],
   "note": "Proved for four kinds of blocks; refuted for every consistent KNX-addresses and manufacturer-data block. C28_exact_addresses and C28_exact_manufacturer give the result of decoding such a block exactly."
  },
  {
   "property": "C29",
   "status": "partial",
   "theorems": [
    "Knx.C29_dib_panics_iff",
    "Knx.C29_search_panics_iff",
    "Knx.C29_violated",
    "Knx.C29_release_never_panics_partial"
   ],
   "note": "Exact panic conditions proved; release builds never panic; refuted in debug builds."
  },
  {
   "property": "C30",
   "status": "proved",
   "theorems": [
    "Knx.C30_dib_even"
   ],
   "note": ""
  },
  {
   "property": "C31",
   "status": "proved",
   "theorems": [
    "Knx.C31_friendly_name",
    "Knx.C31_friendly_name_total"
   ],
   "note": ""
  },
  {
   "property": "C32",
   "status": "proved",
   "theorems": [
    "Knx.C32_byte_types",
    "Knx.C32_bit",
    "Knx.C32_word_int",
    "Knx.C32_ulong"
   ],
   "note": ""
  },
  {
   "property": "C33",
   "status": "proved",
   "theorems": [
    "Knx.C33_b1u3"
   ],
   "note": ""
  },
  {
   "property": "C34",
   "status": "partial",
   "theorems": [
    "Knx.C34_percent_partial",
    "Knx.C34_violated",
    "Knx.C34_exact"
   ],
   "note": "Proved for -327..327; refuted outside (C34_violated): debug panics, release wraps. C34_exact: -327..327 is exactly where it holds."
  },
  {
   "property": "C35",
   "status": "partial",
   "theorems": [
    "Knx.C35_decode_exact",
    "Knx.C35_decode_partial",
    "Knx.C35_length",
    "Knx.C35_exponent_violated",
    "Knx.C35_min_mantissa_violated"
   ],
   "note": "Proved for exponents up to 7 and mantissa other than -2048. Refuted otherwise: exponents 8..15 are decoded as 15-E (C35_exponent_violated), mantissa -2048 panics in debug and decodes to mantissa -63488 in release (C35_min_mantissa_violated). Exact behaviour in C35_decode_exact."
  },
  {
   "property": "C36",
   "status": "partial",
   "theorems": [
    "Knx.C36_rounding",
    "Knx.C36_arithmetic",
    "Knx.C36_conversion",
    "Knx.C36_encode_exact",
    "Knx.C36_accuracy_partial",
    "Knx.C36_boundary_violated",
    "Knx.C36_20_48_violated",
    "Knx.C36_small_negative_violated",
    "Knx.C36_minus_zero_violated",
    "Knx.C36_range_violated"
   ],
   "note": "Accurate to half a step plus single-precision rounding outside three exceptional sets, each refuted: mantissa rounding up to +2048 (encoded as 0), negative values rounding to mantissa 0 (encoded as -20.48), exponents above 15 (truncated). C36_rounding, C36_arithmetic and C36_conversion state the laws of the single-precision arithmetic the model computes with."
  },
  {
   "property": "C37",
   "status": "partial",
   "theorems": [
    "Knx.C37_terminates_partial",
    "Knx.C37_nan",
    "Knx.C37_violated",
    "Knx.C37_iff"
   ],
   "note": "Terminates for NaN and every finite value whose hundredfold is finite; refuted for infinities and overflow: endless loop in release, panic after 32768 iterations in debug (C37_violated). C37_iff: the values for which it terminates, exactly."
  },
  {
   "property": "C38",
   "status": "proved",
   "theorems": [
    "Knx.C38_roundtrip"
   ],
   "note": ""
  },
  {
   "property": "C39",
   "status": "proved",
   "theorems": [
    "Knx.C39_monotone",
    "Knx.C39_saturates",
    "Knx.C39_accuracy",
    "Knx.C39_roundtrip",
    "Knx.C39_zero"
   ],
   "note": "Includes the stated exception: raw 0 reads as 0 percent, which is written as raw 1 (C39_zero)."
  },
  {
   "property": "C40",
   "status": "proved",
   "theorems": [
    "Knx.C40_typed_value_arrives",
    "Knx.C40_byte_panics"
   ],
   "note": "Includes the refuted case: PdtKnxByte always panics (C40_byte_panics)."
  },
  {
   "property": "C41",
   "status": "proved",
   "theorems": [
    "Knx.C41_datagram_exact"
   ],
   "note": "bgRun of receive, ack, deliver from every state waiting for datagrams; longer datagrams: bytes beyond 100 read as zero."
  },
  {
   "property": "C42",
   "status": "proved",
   "theorems": [
    "Knx.C42_acks",
    "Knx.C42_none_missing"
   ],
   "note": "For every execution of client and monitor. Exact one-to-one matching when idle without interrupts and ack send failures; otherwise a bound on the number of missing acks."
  },
  {
   "property": "C43",
   "status": "proved",
   "theorems": [
    "Knx.C43_fifo"
   ],
   "note": "For every execution of client and monitor, matching with received datagrams by sublist and Forall₂."
  },
  {
   "property": "C44",
   "status": "partial",
   "theorems": [
    "Knx.C44_exact",
    "Knx.C44_no_loss_partial",
    "Knx.C44_loss_bound",
    "Knx.C44_violated"
   ],
   "note": "Refuted as stated (C44_violated: acknowledged, then lost when the heart beat interrupts a handler blocked on a full channel). Proved: no loss without interrupts and closed channel; bound on losses in general. C44_exact: exactly which acknowledged telegrams are lost."
  },
  {
   "property": "C45",
   "status": "proved",
   "theorems": [
    "Knx.C45_bounded",
    "Knx.C45_blocks"
   ],
   "note": "Bound 100 in every reachable state; full channel blocks."
  },
  {
   "property": "C46",
   "status": "proved",
   "theorems": [
    "Knx.C46_sequence"
   ],
   "note": "For every execution of client and monitor, wrap-around included."
  },
  {
   "property": "C47",
   "status": "partial",
   "theorems": [
    "Knx.C47_paired_partial",
    "Knx.C47_numbers",
    "Knx.C47_violated",
    "Knx.C47_violated_twice",
    "Knx.C47_monitor_paired_partial",
    "Knx.C47_monitor_numbers",
    "Knx.C47_monitor_violated"
   ],
   "note": "Refuted as stated, for the client and for the monitor (C47_violated: after a reconnect between drawing the number and looking up the channel, a number of the old connection is sent on the new channel; C47_violated_twice: the same number is then used twice; C47_monitor_violated). Proved: paired if no connection is established in between; no drawn number is used twice."
  },
  {
   "property": "C48",
   "status": "proved",
   "theorems": [
    "Knx.C48_granted",
    "Knx.C48_refused"
   ],
   "note": "For every execution of client and monitor."
  },
  {
   "property": "C49",
   "status": "proved",
   "theorems": [
    "Knx.C49_malformed",
    "Knx.C49_only_way"
   ],
   "note": "Explicit result state and observations for every state waiting for datagrams."
  },
  {
   "property": "C50",
   "status": "partial",
   "theorems": [
    "Knx.C50_iff",
    "Knx.C50_survives_partial",
    "Knx.C50_progress",
    "Knx.C50_violated"
   ],
   "note": "Refuted as stated (C50_violated: a ten-byte datagram panics the task on every connection). Proved: the only causes of a panic or an end; progress otherwise. C50_iff: exactly which frames end the task, and how."
  },
  {
   "property": "C51",
   "status": "partial",
   "theorems": [
    "Knx.C51_connected_iff_partial",
    "Knx.C51_violated",
    "Knx.C51_violated_is_connected"
   ],
   "note": "Refuted as stated (C51_violated: connection data stays set in every state after the end of the task; is_connected returns true). Proved: set iff established and not given up since."
  },
  {
   "property": "C52",
   "status": "partial",
   "theorems": [
    "Knx.C52_reasons_partial",
    "Knx.C52_violated"
   ],
   "note": "Refuted as stated (C52_violated: any number of unanswered heart beats, timers on time). Proved: the complete list of reasons for giving up a connection."
  },
  {
   "property": "C53",
   "status": "proved",
   "theorems": [
    "Knx.C53_value"
   ],
   "note": "In every execution, at the step that returns the value."
  },
  {
   "property": "C54",
   "status": "partial",
   "theorems": [
    "Knx.C54_fresh_partial",
    "Knx.C54_violated",
    "Knx.C54_violated_read"
   ],
   "note": "Refuted as stated (C54_violated: in every state with a queued indication for the address a read returns it without receiving anything; C54_violated_read: even another device's read request). Proved: with everything taken before the call, the value was delivered during the call."
  },
  {
   "property": "C55",
   "status": "partial",
   "theorems": [
    "Knx.C55_not_early",
    "Knx.C55_bound_partial",
    "Knx.C55_returns",
    "Knx.C55_violated"
   ],
   "note": "Refuted as stated (C55_violated: any number of minutes, any unrelated telegram, on every connection, all timers on time). Proved: over after 10(n+1) seconds if n telegrams are taken; never early (C55_not_early)."
  },
  {
   "property": "C56",
   "status": "partial",
   "theorems": [
    "Knx.C56_ok_partial",
    "Knx.C56_first_decides",
    "Knx.C56_violated_negative",
    "Knx.C56_violated_indication"
   ],
   "note": "Refuted as a delivery guarantee (C56_violated_negative, C56_violated_indication). Proved: Ok iff the first telegram taken is an L_Data.con."
  },
  {
   "property": "C57",
   "status": "partial",
   "theorems": [
    "Knx.C57_ok_partial",
    "Knx.C57_violated"
   ],
   "note": "Refuted as stated (C57_violated: with an empty message channel a confirmed disconnect can only return an error). Proved: what Ok means."
  },
  {
   "property": "C58",
   "status": "proved",
   "theorems": [
    "Knx.C58_status",
    "Knx.C58_swallows",
    "Knx.C58_loss"
   ],
   "note": "C58_loss shows a telegram swallowed by the query."
  },
  {
   "property": "C59",
   "status": "proved",
   "theorems": [
    "Knx.C59_silent",
    "Knx.C59_returns"
   ],
   "note": "In every execution, for every call started without connection and as long as none is established."
  },
  {
   "property": "C60",
   "status": "partial",
   "theorems": [
    "Knx.C60_exact",
    "Knx.C60_all_partial",
    "Knx.C60_violated_discards",
    "Knx.C60_violated_leftover",
    "Knx.C60_violated_long",
    "Knx.C60_lasts"
   ],
   "note": "Refuted as stated (C60_violated_discards: one undecodable datagram discards everything; C60_violated_leftover: a shorter datagram is completed with the bytes of an earlier one and duplicates it; C60_violated_long: an answer with more than 15 service families makes the search fail). Proved: what a returned list is in every run (C60_exact); all answers in order if each fits the buffer; the timeout restarts with each answer (C60_lasts)."
  },
  {
   "property": "C61",
   "status": "proved",
   "theorems": [
    "Knx.C61_results",
    "Knx.C61_caller",
    "Knx.C61_progress"
   ],
   "note": "In every execution of the monitor; C61_progress: a waiting call makes progress on every queued message."
  },
  {
   "property": "C62",
   "status": "proved",
   "theorems": [
    "Knx.C62_registered",
    "Knx.C62_notified",
    "Knx.C62_proceeds",
    "Knx.C62_blocks"
   ],
   "note": "In every execution of the monitor, including the blocking by a full subscriber channel (C62_blocks)."
  },
  {
   "property": "C63",
   "status": "proved",
   "theorems": [
    "Knx.C63_enabled",
    "Knx.C63_numbers"
   ],
   "note": "In every execution of the monitor."
  },
  {
   "property": "C64",
   "status": "partial",
   "theorems": [
    "Knx.C64_per_copy_partial",
    "Knx.C64_violated"
   ],
   "note": "Refuted as stated (C64_violated: n copies give n deliveries, for every n). Proved: deliveries are one per received acknowledged copy, in order (C64_per_copy_partial)."
  },
  {
   "property": "C65",
   "status": "partial",
   "theorems": [
    "Knx.C65_channel_partial",
    "Knx.C65_violated"
   ],
   "note": "Refuted as stated (C65_violated: requests and disconnect requests of any channel are accepted). Proved: what the client itself sends always carries the channel of its connection (C65_channel_partial)."
  },
  {
   "property": "C66",
   "status": "partial",
   "theorems": [
    "Knx.C66_monitor_once_partial",
    "Knx.C66_monitor_violated",
    "Knx.C66_monitor_violated_send",
    "Knx.C66_once_partial",
    "Knx.C66_violated",
    "Knx.C66_violated_write"
   ],
   "note": "Refuted as stated (C66_violated, C66_violated_write: a call succeeds whatever the acknowledgement says). Proved: at most one tunneling request per call (C66_once_partial). For the monitor: C66_monitor_once_partial, C66_monitor_violated, and C66_monitor_violated_send (Ok is returned as soon as the request is sent)."
  },
  {
   "property": "C67",
   "status": "partial",
   "theorems": [
    "Knx.C67_silent_partial",
    "Knx.C67_violated",
    "Knx.C67_violated_beats",
    "Knx.C67_violated_reconnects"
   ],
   "note": "Refuted as stated (C67_violated: no disconnect request without a call of disconnect; C67_violated_beats: n heart beats in n minutes after the drop; C67_violated_reconnects: n reconnections after the drop). Proved: no calls and nothing sent for calls after the drop (C67_silent_partial)."
  },
  {
   "property": "C68",
   "status": "proved",
   "theorems": [
    "Knx.C68_tight",
    "Knx.C68_rate",
    "Knx.C68_spacing",
    "Knx.C68_at_least",
    "Knx.C68_ready"
   ],
   "note": "C68_tight: the bound on the distance is attained."
  },
  {
   "property": "C69",
   "status": "partial",
   "theorems": [
    "Knx.C69_patient",
    "Knx.C69_pause",
    "Knx.C69_rate_partial",
    "Knx.C69_soon",
    "Knx.C69_violated"
   ],
   "note": "Lower bound proved while no connection is established (C69_rate_partial), upper bound without restriction (C69_soon); refuted across connections (C69_violated): no pause after a lost connection. Exact timing of the attempts: the answer is awaited 30 seconds, the next attempt comes not before 40 seconds of silence (C69_patient), and the pause after a failed attempt is 10 seconds (C69_pause)."
  },
  {
   "property": "C70",
   "status": "proved",
   "theorems": [
    "Knx.C70_task",
    "Knx.C70_client",
    "Knx.C70_monitor"
   ],
   "note": ""
  },
  {
   "property": "C71",
   "status": "proved",
   "theorems": [
    "Knx.C71_not_early",
    "Knx.C71_write_bound"
   ],
   "note": ""
  },
  {
   "property": "C72",
   "status": "partial",
   "theorems": [
    "Knx.C72_status_partial",
    "Knx.C72_violated_status",
    "Knx.C72_violated_disconnect",
    "Knx.C72_violated_monitor"
   ],
   "note": "Refuted for status and disconnect of client and monitor (C72_violated_status/_disconnect/_monitor); C72_status_partial: the only ways a status query ends."
  },
  {
   "property": "C73",
   "status": "proved",
   "theorems": [
    "Knx.C73_client",
    "Knx.C73_monitor"
   ],
   "note": ""
  },
  {
   "property": "C74",
   "status": "proved",
   "theorems": [
    "Knx.C74_telegram",
    "Knx.C74_disconnect",
    "Knx.C74_is_connected",
    "Knx.C74_subscribe"
   ],
   "note": ""
  },
  {
   "property": "C75",
   "status": "proved",
   "theorems": [
    "Knx.C75_client",
    "Knx.C75_monitor",
    "Knx.C75_next"
   ],
   "note": ""
  },
  {
   "property": "C76",
   "status": "proved",
   "theorems": [
    "Knx.C76_client",
    "Knx.C76_monitor",
    "Knx.C76_next",
    "Knx.C76_write_panics",
    "Knx.C76_long_panics",
    "Knx.C76_disconnect_panics"
   ],
   "note": ""
  },
  {
   "property": "C77",
   "status": "proved",
   "theorems": [
    "Knx.C77_client_as_one",
    "Knx.C77_monitor_as_one",
    "Knx.C77_turns",
    "Knx.C77_order",
    "Knx.C77_client_own",
    "Knx.C77_monitor_own",
    "Knx.C77_read"
   ],
   "note": "Model/Callers.lean adds the line of callers waiting for the transport lock (tokio's mutex is fair) to the client and the monitor. C77_client_as_one/C77_monitor_as_one: refinement to the single-caller executions all other theorems are about. C77_turns, C77_order: turns and order. C77_client_own, C77_monitor_own, C77_read: attribution of results."
  },
  {
   "property": "C78",
   "status": "partial",
   "theorems": [
    "Knx.C78_ahead_partial",
    "Knx.C78_cancel_partial",
    "Knx.C78_early_partial",
    "Knx.C78_early_monitor_partial",
    "Knx.C78_violated",
    "Knx.C78_violated_monitor"
   ],
   "note": "Refuted: a status call (client) or a disconnect (monitor) whose answer does not come holds the transport lock without any time limit, so every other call, even is_connected and next_msg, waits for as long as one likes (C78_violated, C78_violated_monitor, for every number of minutes, every waiting call). What holds: nobody is overtaken by later callers (C78_ahead_partial), and dropping the call that holds the lock lets the next one go on (C78_cancel_partial)."
  },
  {
   "property": "C79",
   "status": "partial",
   "theorems": [
    "Knx.C79_labels_partial",
    "Knx.C79_violated_ulong",
    "Knx.C79_violated_b1u3"
   ],
   "note": "Holds for six of the eight types. Refuted for PdtKnxULong (decoded values claim to be of type 8.x instead of 12.x) and PdtKnxB1U3 (0.x instead of 3.x), for every input."
  },
  {
   "property": "C80",
   "status": "partial",
   "theorems": [
    "Knx.C80_short_partial",
    "Knx.C80_violated",
    "Knx.C80_violated_range"
   ],
   "note": "Too short strings are rejected by all types (and the float type accepts exactly two bytes). Refuted otherwise: all other types accept any longer string and ignore the rest, and bit and B1U3 accept bytes outside the range of the type."
  },
  {
   "property": "C81",
   "status": "partial",
   "theorems": [
    "Knx.C81_encode_partial",
    "Knx.C81_violated_encode",
    "Knx.C81_decode_partial",
    "Knx.C81_violated_decode"
   ],
   "note": "The encoding is the nearest byte or the one above it, the decoding at most 0.4 percent off and exact for byte 0. Refuted: percentages from 0 to 0.19 are encoded as 1 and no percentage gives byte 0; decoding deviates as the theorems say."
  },
  {
   "property": "C82",
   "status": "partial",
   "theorems": [
    "Knx.C82_partial",
    "Knx.C82_violated",
    "Knx.C82_violated_individual"
   ],
   "note": "Holds: the value is that of an acknowledged L_Data.ind whose destination field equals the address. Refuted: address type bit, TPCI and APCI are not looked at, so a telegram to the device whose individual address has the same 16 bits is returned as the value of the group."
  },
  {
   "property": "C83",
   "status": "partial",
   "theorems": [
    "Knx.C83_exact",
    "Knx.C83_partial",
    "Knx.C83_monitor_exact",
    "Knx.C83_violated",
    "Knx.C83_from_monitor",
    "Knx.C83_monitors"
   ],
   "note": "Holds for values of at most 79 bytes (small writes: the low six bits of the first byte). Refuted beyond: the receiver silently replaces all bytes after the 79th by zeros."
  },
  {
   "property": "C84",
   "status": "partial",
   "theorems": [
    "Knx.C84_partial",
    "Knx.C84_violated_status",
    "Knx.C84_violated_monitor"
   ],
   "note": "Holds if the call is the one that receives the datagram. Refuted: the background task reads from the same socket; if it gets the answer, a status query goes on waiting (for any number of minutes), and a disconnecting monitor's task ends while the call waits for a datagram that is never sent."
  },
  {
   "property": "C85",
   "status": "partial",
   "theorems": [
    "Knx.C85_injective",
    "Knx.C85_exact",
    "Knx.C85_partial",
    "Knx.C85_violated_discards",
    "Knx.C85_violated_name"
   ],
   "note": "Holds: the text determines the descriptions (injective), and for search responses with at most 15 service families exactly one block each is printed. Refuted: one malformed datagram discards the blocks of all gateways; and the output never equals the documented one, for the name is printed with its padding, always 30 characters."
  },
  {
   "property": "C86",
   "status": "proved",
   "theorems": [
    "Knx.C86_per_call",
    "Knx.C86_monitor"
   ],
   "note": "For all executions of the client (C86_per_call) and of the monitor (C86_monitor)."
  },
  {
   "property": "C87",
   "status": "partial",
   "theorems": [
    "Knx.C87_outcome",
    "Knx.C87_sleeps",
    "Knx.C87_sample_sends",
    "Knx.C87_sample_result_partial",
    "Knx.C87_violated_error",
    "Knx.C87_violated_hangs"
   ],
   "note": "Holds: order, results and sleeps for all programs; what the sample program sends, and when; what its result means. Refuted: if the gateway confirms both requests the program ends with an error; if the gateway is silent after the disconnect request the program never ends."
  },
  {
   "property": "C88",
   "status": "partial",
   "theorems": [
    "Knx.C88_accepted_partial",
    "Knx.C88_monitor_accepted_partial",
    "Knx.C88_lost",
    "Knx.C88_monitor_lost",
    "Knx.C88_gap",
    "Knx.C88_violated",
    "Knx.C88_violated_unsent"
   ],
   "note": "Holds without loss and while no call fails to send, panics or is dropped (C88_accepted_partial, C88_monitor_accepted_partial); refuted otherwise (C88_lost, C88_violated, C88_violated_unsent); C88_gap says exactly what is forwarded while at most 255 numbers have been drawn."
  },
  {
   "property": "C89",
   "status": "partial",
   "theorems": [
    "Knx.C89_write_partial",
    "Knx.C89_read_partial",
    "Knx.C89_ended",
    "Knx.C89_violated",
    "Knx.C89_monitor_next_partial",
    "Knx.C89_monitor_write_partial",
    "Knx.C89_monitor_ended",
    "Knx.C89_monitor_violated"
   ],
   "note": "Holds from every state in which the task has neither ended nor panicked (C89_write_partial, C89_read_partial, C89_monitor_next_partial, C89_monitor_write_partial); C89_ended and C89_monitor_ended bound what can still succeed afterwards; refuted by C89_violated and C89_monitor_violated."
  },
  {
   "property": "C90",
   "status": "partial",
   "theorems": [
    "Knx.C90_client_partial",
    "Knx.C90_monitor_partial",
    "Knx.C90_violated_disconnect",
    "Knx.C90_violated_status",
    "Knx.C90_violated_monitor"
   ],
   "note": "C90_client_partial and C90_monitor_partial bound which connections channel and endpoint belong to, and show that they are the current one unless a connection is established during the call; refuted by C90_violated_disconnect, C90_violated_status, C90_violated_monitor for any two grants."
  },
  {
   "property": "C91",
   "status": "proved",
   "theorems": [
    "Knx.C91_faults",
    "Knx.C91_next"
   ],
   "note": "C91_faults: every two consecutive actions of the task; C91_next: the action that is possible after a fault. The exception, datagrams that make the task panic, is exactly that of C20."
  },
  {
   "property": "C92",
   "status": "partial",
   "theorems": [
    "Knx.C92_connect_partial",
    "Knx.C92_named_iff",
    "Knx.C92_monitor_named_iff",
    "Knx.C92_violated",
    "Knx.C92_monitor_violated"
   ],
   "note": "C92_connect_partial: connect requests are right; C92_named_iff and C92_monitor_named_iff: which endpoint the others name, and exactly when the answer arrives; C92_violated and C92_monitor_violated: the consequences for every execution in which no granted endpoint is the client's own."
  },
  {
   "property": "C93",
   "status": "partial",
   "theorems": [
    "Knx.C93_sent",
    "Knx.C93_answerable_iff",
    "Knx.C93_violated"
   ],
   "note": "C93_sent: what is sent where, and the results without a socket; C93_answerable_iff: exactly which endpoints can be answered; C93_violated: the endpoint that is named cannot, with the consequences for the search and the discovery program."
  },
  {
   "property": "C94",
   "status": "partial",
   "theorems": [
    "Knx.C94_left_partial",
    "Knx.C94_violated"
   ],
   "note": "C94_left_partial: how many connections are left at the server, in every execution; C94_violated: any number of connections granted, given up and left open without any time passing."
  },
  {
   "property": "C95",
   "status": "partial",
   "theorems": [
    "Knx.C95_resumes_partial",
    "Knx.C95_violated",
    "Knx.C95_stall"
   ],
   "note": "C95_resumes_partial: exactly when the task can go on, and that it does once the subscriber reads or drops its channel and there is room for the others; C95_violated: standstill for every capacity after one more connection; C95_stall: from every state with a full channel and no call past the locks."
  },
  {
   "property": "C96",
   "status": "partial",
   "theorems": [
    "Knx.C96_own_partial",
    "Knx.C96_violated"
   ],
   "note": "C96_own_partial: holds in all executions in which no connect request is sent while an earlier one is unanswered; C96_violated: any number of connections, granted and given up again, none of them the one granted to the last request, though the server grants every request in order and timers fire on time."
  },
  {
   "property": "C97",
   "status": "partial",
   "theorems": [
    "Knx.C97_read_partial",
    "Knx.C97_monitor_partial",
    "Knx.C97_violated_short",
    "Knx.C97_violated_long",
    "Knx.C97_exact"
   ],
   "note": "C97_read_partial, C97_monitor_partial: the value consists of consecutive bytes of one received and acknowledged datagram followed by zeros, or of the low six bits of one of its bytes, and it is the delivered value if that datagram follows the standard and has at most 100 bytes. C97_violated_short, C97_violated_long: zeros never sent are returned otherwise. C97_exact: the exact relation between the value and the datagram it comes from."
  },
  {
   "property": "C98",
   "status": "partial",
   "theorems": [
    "Knx.C98_failed_partial",
    "Knx.C98_monitor_failed_partial",
    "Knx.C98_built",
    "Knx.C98_monitor_built",
    "Knx.C98_violated",
    "Knx.C98_violated_monitor",
    "Knx.C98_violated_forever"
   ],
   "note": "C98_failed_partial, C98_monitor_failed_partial: when a constructor fails, nothing was sent and nothing happens afterwards; C98_built, C98_monitor_built: after a constructor every execution is one of the executions that all other properties are about. C98_violated, C98_violated_monitor, C98_violated_forever: a client is returned without a server, and all its calls fail."
  },
  {
   "property": "C99",
   "status": "partial",
   "theorems": [
    "Knx.C99_burst_partial",
    "Knx.C99_violated",
    "Knx.C99_violated_minute"
   ],
   "note": "C99_burst_partial: telegrams are acknowledged and kept at once as long as they fit into the 100 places; C99_violated: the bound in all executions; C99_violated_minute: a reachable state in which nothing is received or sent for a minute, whatever the server sends."
  },
  {
   "property": "C100",
   "status": "partial",
   "theorems": [
    "Knx.C100_unseen_partial",
    "Knx.C100_monitor_unseen_partial",
    "Knx.C100_next_unseen",
    "Knx.C100_waiting_unseen",
    "Knx.C100_keeps",
    "Knx.C100_next_keeps",
    "Knx.C100_violated_number",
    "Knx.C100_violated_confirmation",
    "Knx.C100_violated_value"
   ],
   "note": "C100_unseen_partial, C100_monitor_unseen_partial, C100_next_unseen, C100_waiting_unseen: erasing the dropped call from an execution gives an execution; C100_keeps, C100_next_keeps: no answer is lost; C100_violated_number, C100_violated_confirmation, C100_violated_value: the refutations."
  },
  {
   "property": "C101",
   "status": "partial",
   "theorems": [
    "Knx.C101_client_partial",
    "Knx.C101_monitor_partial",
    "Knx.C101_all",
    "Knx.C101_violated_status",
    "Knx.C101_violated_disconnect",
    "Knx.C101_violated_connect"
   ],
   "note": "C101_client_partial, C101_monitor_partial: the account of missing telegrams; C101_all: without such events each telegram is acknowledged and delivered in order; C101_violated_status, C101_violated_disconnect, C101_violated_connect: the refutations, for every telegram."
  },
  {
   "property": "C102",
   "status": "partial",
   "theorems": [
    "Knx.C102_services",
    "Knx.C102_violated_service",
    "Knx.C102_violated_individual",
    "Knx.C102_same_iff",
    "Knx.C102_exact",
    "Knx.C102_partial"
   ],
   "note": "C102_exact and C102_same_iff: what the frame tells; C102_partial: group reads and writes; C102_services: the constructors; C102_violated_service, C102_violated_individual: the refutations, for every telegram."
  },
  {
   "property": "C103",
   "status": "partial",
   "theorems": [
    "Knx.C103_arrives_partial",
    "Knx.C103_violated_zero",
    "Knx.C103_violated_20_48",
    "Knx.C103_violated_below_zero",
    "Knx.C103_violated_min",
    "Knx.C103_violated_hot",
    "Knx.C103_room_partial"
   ],
   "note": "C103_arrives_partial, C103_room_partial: where it holds; C103_violated_zero, C103_violated_20_48, C103_violated_below_zero, C103_violated_min, C103_violated_hot: the refutations."
  },
  {
   "property": "C104",
   "status": "proved",
   "theorems": [
    "Knx.C104_connects",
    "Knx.C104_after_loss",
    "Knx.C104_start",
    "Knx.C104_start_monitor",
    "Knx.C104_goes_on",
    "Knx.C104_tight"
   ],
   "note": "C104_connects: the bound; C104_after_loss, C104_start, C104_start_monitor: the shorter ones; C104_goes_on: the runs considered do not get stuck; C104_tight: the bound is attained."
  },
  {
   "property": "C105",
   "status": "proved",
   "theorems": [
    "Knx.C105_call",
    "Knx.C105_next_msg"
   ],
   "note": "C105_call: read and write of the client; C105_next_msg: the monitor."
  },
  {
   "property": "C106",
   "status": "partial",
   "theorems": [
    "Knx.C106_exact",
    "Knx.C106_whole_partial",
    "Knx.C106_same",
    "Knx.C106_violated_short",
    "Knx.C106_violated_long",
    "Knx.C106_violated_connect",
    "Knx.C106_connect_exact"
   ],
   "note": "Refuted by C106_violated_short, C106_violated_long and C106_violated_connect. C106_exact, C106_connect_exact: what is accepted, exactly; C106_whole_partial: datagrams with the right length field; C106_same: the effect is that of the frame."
  },
  {
   "property": "C107",
   "status": "proved",
   "theorems": [
    "Knx.C107_client",
    "Knx.C107_monitor",
    "Knx.C107_unattended",
    "Knx.C107_unattended_monitor"
   ],
   "note": "C107_client, C107_monitor: pairs of executions; C107_unattended, C107_unattended_monitor: the execution without the application. That calls may receive datagrams the task would have received is part of what happens to the task; see C84 and C101."
  },
  {
   "property": "C108",
   "status": "partial",
   "theorems": [
    "Knx.C108_indication_partial",
    "Knx.C108_extended_partial",
    "Knx.C108_standard_exact",
    "Knx.C108_standard_addresses",
    "Knx.C108_violated_control",
    "Knx.C108_violated_standard"
   ],
   "note": "Refuted by C108_violated_standard and C108_violated_control. C108_standard_exact and C108_standard_addresses: what is shown of standard frames, exactly; C108_indication_partial, C108_extended_partial: where it holds."
  },
  {
   "property": "C109",
   "status": "partial",
   "theorems": [
    "Knx.C109_told",
    "Knx.C109_not_more",
    "Knx.C109_subscribe_then_ask_partial",
    "Knx.C109_violated"
   ],
   "note": "Refuted by C109_violated for the order ask, subscribe. C109_subscribe_then_ask_partial: the safe order; C109_told and C109_not_more: the notifications, counted exactly."
  },
  {
   "property": "C110",
   "status": "partial",
   "theorems": [
    "Knx.C110_exact",
    "Knx.C110_monitor",
    "Knx.C110_violated"
   ],
   "note": "Refuted by C110_violated for the client. C110_exact: when calls of the client wait; C110_monitor: calls of the monitor do not."
  },
  {
   "property": "C111",
   "status": "partial",
   "theorems": [
    "Knx.C111_status_exact",
    "Knx.C111_disconnect_exact",
    "Knx.C111_status_iff",
    "Knx.C111_partial",
    "Knx.C111_violated",
    "Knx.C111_disconnect_iff",
    "Knx.C111_search_violated"
   ],
   "note": "Refuted by C111_violated and C111_search_violated (wrong versions). C111_status_exact and C111_disconnect_exact: the messages; C111_status_iff and C111_disconnect_iff: when they are the same; C111_partial: what holds."
  },
  {
   "property": "C112",
   "status": "partial",
   "theorems": [
    "Knx.C112_monitor_partial",
    "Knx.C112_monitor_violated",
    "Knx.C112_next",
    "Knx.C112_client_partial",
    "Knx.C112_late",
    "Knx.C112_write_violated"
   ],
   "note": "Refuted by C112_monitor_violated (solecitate_group_read) and C112_write_violated. C112_client_partial, C112_monitor_partial and C112_next: what holds; C112_late: a time-out is reported only when ten seconds have passed."
  },
  {
   "property": "C113",
   "status": "partial",
   "theorems": [
    "Knx.C113_flaw",
    "Knx.C113_iff",
    "Knx.C113_partial",
    "Knx.C113_violated"
   ],
   "note": "Refuted by C113_violated. C113_flaw: a text is rejected iff something is wrong with it, and what is wrong first is unique; C113_iff: exactly which messages are the same; C113_partial: what holds."
  },
  {
   "property": "C114",
   "status": "partial",
   "theorems": [
    "Knx.C114_exact",
    "Knx.C114_partial",
    "Knx.C114_int",
    "Knx.C114_violated",
    "Knx.C114_placeholder"
   ],
   "note": "Refuted by C114_violated (single bytes) and C114_placeholder. C114_exact: which bytes are rejected with which message; C114_partial: what holds; C114_int: the 16-bit signed integer exactly."
  },
  {
   "property": "C115",
   "status": "proved",
   "theorems": [
    "Knx.C115_succeeds",
    "Knx.C115_goes_on"
   ],
   "note": "C115_succeeds (safety: success first, in time) and C115_goes_on (the run can always be continued to the return). The hypotheses about heart beats and queued telegrams are needed: see C44 (a telegram interrupted by a heart beat is lost) and C54, C55 (older telegrams are taken for the answer)."
  },
  {
   "property": "C116",
   "status": "proved",
   "theorems": [
    "Knx.C116_results",
    "Knx.C116_goes_on"
   ],
   "note": "C116_results and C116_goes_on. The condition that no call of the program could mistake a telegram for its reply is needed: C54 shows calls ending on older telegrams. For programs with writes it means that only replies and telegrams of no consequence arrive."
  },
  {
   "property": "C117",
   "status": "proved",
   "theorems": [
    "Knx.C117_results",
    "Knx.C117_in_time",
    "Knx.C117_goes_on"
   ],
   "note": "C117_results, C117_in_time and C117_goes_on. The condition on telegrams is needed (C54), and so is a server that replies: without replies a caller can wait forever (C78)."
  },
  {
   "property": "C118",
   "status": "partial",
   "theorems": [
    "Knx.C118_total",
    "Knx.C118_exact",
    "Knx.C118_large_partial",
    "Knx.C118_violated_small",
    "Knx.C118_violated_negative",
    "Knx.C118_wraps",
    "Knx.C118_violated_large",
    "Knx.C118_tiny",
    "Knx.C118_nothing",
    "Knx.C118_violated_tiny"
   ],
   "note": "Refuted: below 10.24 the result denotes 65536 times the value (C118_violated_small; the exponent becomes negative and is cut to four bits), for negative numbers the mantissa is not a two's complement (C118_violated_negative), between -0.01 and 0 the result denotes -20.48 or less (C118_violated_tiny), and from 327.68 on it denotes less than 327.68 (C118_violated_large). It never panics and always yields two bytes (C118_total); for 10.24 to 327.67 the result is right, cut to the precision of the format (C118_large_partial). C118_exact, C118_wraps (any size), C118_tiny and C118_nothing (below one hundredth) give the bits; not described are values whose hundredths are a multiple of 32768 other than 0."
  },
  {
   "property": "C119",
   "status": "proved",
   "theorems": [
    "Knx.C119_client",
    "Knx.C119_monitor",
    "Knx.C119_window",
    "Knx.C119_client_all",
    "Knx.C119_monitor_all",
    "Knx.C119_tight",
    "Knx.C119_size"
   ],
   "note": "C119_client, C119_monitor (from the start), C119_window (from any point), C119_client_all, C119_monitor_all (with calls), C119_size (bytes) and C119_tight (the factors 1 and 2 are reached, in any number and in no time: connections that are granted and fail at once)."
  },
  {
   "property": "C120",
   "status": "proved",
   "theorems": [
    "Knx.C120_refines",
    "Knx.C120_complete",
    "Knx.C120_iff"
   ],
   "note": "C120_refines (simulation), C120_complete (every walk is realised by a run with timers on time, an application that takes the telegrams, and failures of the socket) and C120_iff. The moves include the flaws refuted elsewhere: a disconnect request is garbage (C22), a request with a length below ten ends the task (C20), a heart beat takes the place of an acknowledgement (C42)."
  },
  {
   "property": "C121",
   "status": "proved",
   "theorems": [
    "Knx.C121_sets",
    "Knx.C121_sent",
    "Knx.C121_mixed"
   ],
   "note": "C121_sets (all outcomes), C121_sent (it can always be sent). C121_mixed states what the property does not promise: number and channel can belong to different connections (compare C47, C65). `set_feature` is modelled in Model/Feature.lean; it is not called by the public API."
  },
  {
   "property": "C122",
   "status": "partial",
   "theorems": [
    "Knx.C122_exact",
    "Knx.C122_count",
    "Knx.C122_own_partial",
    "Knx.C122_violated"
   ],
   "note": "Refuted (C122_violated): after one late answer every later read of the group, although answered at once, returns the value of the answer to the read before, for any number of reads. C122_own_partial: a read that starts when no indication for its group is waiting returns what arrives during the call. C122_exact and C122_count: what reads of one group return is exactly the sequence of the indications delivered for it, whatever they answer; the lag is the number of those still in the channel."
  },
  {
   "property": "C123",
   "status": "partial",
   "theorems": [
    "Knx.C123_exact",
    "Knx.C123_count",
    "Knx.C123_own_partial",
    "Knx.C123_violated"
   ],
   "note": "Refuted (C123_violated): after one late confirmation every later write, although confirmed at once, has reported success before its own confirmation arrives, for any number of writes, and also if all confirmations are negative. C123_own_partial: a write that starts when nothing is waiting succeeds because of a confirmation that arrives during the call. C123_exact and C123_count: the number of writes that succeed is exactly that of the confirmations taken, which are the first that arrived; the lag is the number of those still in the channel."
  },
  {
   "property": "C124",
   "status": "partial",
   "theorems": [
    "Knx.C124_exact",
    "Knx.C124_telegram",
    "Knx.C124_honest_partial",
    "Knx.C124_bounded_partial",
    "Knx.C124_violated"
   ],
   "note": "Refuted (C124_violated: 12 n received bytes fill 65525 n, for every n up to 100). C124_exact gives the size of every telegram; C124_honest_partial: with a right length field it is at most that of the datagram, or 346; C124_bounded_partial: never more than 6552500 bytes wait."
  },
  {
   "property": "C125",
   "status": "partial",
   "theorems": [
    "Knx.C125_bound_partial",
    "Knx.C125_exact",
    "Knx.C125_forgotten_partial",
    "Knx.C125_violated"
   ],
   "note": "Refuted (C125_violated) for every number of subscriptions. C125_exact: until a further connection is established the list only grows by the subscriptions made; C125_forgotten_partial: afterwards a subscription whose receiver had been dropped is gone; C125_bound_partial: never more are kept than have been made."
  },
  {
   "property": "C126",
   "status": "proved",
   "theorems": [
    "Knx.C126_diary",
    "Knx.C126_every",
    "Knx.C126_exact"
   ],
   "note": "C126_diary: every execution; C126_every: every story happens; C126_exact: both together. What is seen of the application does not include times (C55, C71, C72)."
  },
  {
   "property": "C127",
   "status": "proved",
   "theorems": [
    "Knx.C127_exact",
    "Knx.C127_iff",
    "Knx.C127_says",
    "Knx.C127_other"
   ],
   "note": "C127_exact: every failed search; C127_iff: which searches fail; C127_says, C127_other: what can be read off the text. A flaw is defined on the 100 octets by positions. Blocks too short for what is subtracted from their length panic in debug builds (C29) and have no text."
  },
  {
   "property": "C128",
   "status": "proved",
   "theorems": [
    "Knx.C128_calls",
    "Knx.C128_caller",
    "Knx.C128_every_call",
    "Knx.C128_call_exact",
    "Knx.C128_every_caller",
    "Knx.C128_caller_exact"
   ],
   "note": "C128_calls, C128_caller: every execution; C128_every_call, C128_every_caller: every story happens; C128_call_exact, C128_caller_exact: both together. Which caller gets which telegram, and how the calls interleave, is left open."
  },
  {
   "property": "C129",
   "status": "proved",
   "theorems": [
    "Knx.C129_functions",
    "Knx.C129_encoder",
    "Knx.C129_client",
    "Knx.C129_monitor",
    "Knx.C129_client_differs",
    "Knx.C129_monitor_differs",
    "Knx.C129_client_until",
    "Knx.C129_monitor_until",
    "Knx.C129_search"
   ],
   "note": "C129_functions, C129_encoder: single functions, as equivalences; C129_client, C129_monitor: same executions; C129_client_differs, C129_monitor_differs: no observation can be taken off the list; C129_client_until, C129_monitor_until: until something panics; C129_search: searches. The two builds are the two values of the parameter Mode of the model (overflow of +, -, * on machine integers panics or wraps)."
  },
  {
   "property": "C130",
   "status": "proved",
   "theorems": [
    "Knx.C130_one",
    "Knx.C130_same",
    "Knx.C130_seen",
    "Knx.C130_shown",
    "Knx.C130_iff",
    "Knx.C130_seen_only",
    "Knx.C130_decoded"
   ],
   "note": "C130_one (exactly one effect), C130_same, C130_seen and C130_shown (both directions), C130_iff (the equivalence), C130_seen_only and C130_decoded (on what the effect depends)."
  },
  {
   "property": "C131",
   "status": "partial",
   "theorems": [
    "Knx.C131_exact",
    "Knx.C131_iff",
    "Knx.C131_partial",
    "Knx.C131_search",
    "Knx.C131_cemi",
    "Knx.C131_violated_version",
    "Knx.C131_violated_ack",
    "Knx.C131_violated_feature",
    "Knx.C131_violated_cemi",
    "Knx.C131_violated_dib"
   ],
   "note": "C131_exact gives the message of every rejected byte string for eleven decoders, C131_search and C131_cemi for the other two; C131_iff says exactly which faults share a message. The property does not hold: wrong versions are not told apart (the header size, or the version expected, is shown in place of the version), an acknowledgement or feature response that ends before its channel or before its sequence number gives the same message, so does a feature response that ends before the feature or before the status, the type of unknown additional information is not told, and a description block without a type is said to lack its length (C131_violated_*). C131_partial is the property for all other faults. The texts of the blocks of a search response are the subject of C127."
  },
  {
   "property": "C132",
   "status": "partial",
   "theorems": [
    "Knx.C132_cemi_cut",
    "Knx.C132_cemi_followed",
    "Knx.C132_dib",
    "Knx.C132_response",
    "Knx.C132_followed_partial",
    "Knx.C132_cut_partial",
    "Knx.C132_enough",
    "Knx.C132_tunnel_cut",
    "Knx.C132_violated_cut",
    "Knx.C132_followed_exact",
    "Knx.C132_violated_followed",
    "Knx.C132_search_followed",
    "Knx.C132_search_cut",
    "Knx.C132_violated_cemi"
   ],
   "note": "For ten layouts C132_cut_partial and C132_followed_partial prove both halves, and C132_enough that a packet keeps its meaning as long as none of its own octets is missing; C132_search_cut and C132_search_followed do so for search requests. For tunnelling requests C132_tunnel_cut proves rejection within the first ten octets, C132_violated_cut gives the value, zeros included, for every later cut, C132_followed_exact says for exactly which continuations the result stays the same, and C132_violated_followed is the refutation. C132_violated_cemi is the refutation for cEMI frames; C132_cemi_cut says for exactly which cuts a frame is still accepted, C132_cemi_followed what becomes of octets behind a frame with complete additional information. C132_dib and C132_response prove the property for description blocks of every type and for search responses, with the number of octets they take (the message is then an error that is not determined further here; C127 has it)."
  },
  {
   "property": "C133",
   "status": "partial",
   "theorems": [
    "Knx.C133_same_partial",
    "Knx.C133_state_iff",
    "Knx.C133_search_iff",
    "Knx.C133_tunnel_iff",
    "Knx.C133_violated_connect",
    "Knx.C133_violated_disconnect",
    "Knx.C133_violated_feature",
    "Knx.C133_violated_response",
    "Knx.C133_dib_iff",
    "Knx.C133_violated_manufacturer",
    "Knx.C133_addresses_iff",
    "Knx.C133_blocks_partial",
    "Knx.C133_tunnel_again",
    "Knx.C133_blocks_again"
   ],
   "note": "C133_same_partial: six decoders without conditions. C133_state_iff, C133_search_iff, C133_tunnel_iff, C133_dib_iff, C133_addresses_iff: exactly when the packet is the same; C133_blocks_partial: description blocks with the length of the standard. C133_violated_connect, _disconnect, _feature, _response, _manufacturer: never the same. C133_tunnel_again, C133_blocks_again: what is accepted can be encoded again and is then decoded to the same value (of blocks only the length octet may change)."
  },
  {
   "property": "C134",
   "status": "partial",
   "theorems": [
    "Knx.C134_decode_iff",
    "Knx.C134_decode_partial",
    "Knx.C134_violated_exponent",
    "Knx.C134_violated_minimum",
    "Knx.C134_written_partial",
    "Knx.C134_room_partial",
    "Knx.C134_violated_written",
    "Knx.C134_percent"
   ],
   "note": "C134_decode_partial (decoder, exponents up to seven), C134_written_partial and C134_room_partial (temperatures written and received), C134_percent (all raw percentages). C134_decode_iff: the exact order of what is decoded. C134_violated_exponent, C134_violated_minimum, C134_violated_written: pairs in the wrong order."
  },
  {
   "property": "C135",
   "status": "partial",
   "theorems": [
    "Knx.C135_partial",
    "Knx.C135_alike",
    "Knx.C135_encoded",
    "Knx.C135_iff",
    "Knx.C135_address",
    "Knx.C135_violated_feature",
    "Knx.C135_violated_status",
    "Knx.C135_violated_address",
    "Knx.C135_violated_device"
   ],
   "note": "C135_partial: messages with the same octets differ in nothing but what is listed; C135_alike and C135_iff: exactly those have the same octets; C135_address: in range no two device addresses collide. C135_violated_feature, C135_violated_status, C135_violated_address, C135_violated_device: different messages with the same octets."
  },
  {
   "property": "C136",
   "status": "partial",
   "theorems": [
    "Knx.C136_apdu_iff",
    "Knx.C136_request_iff",
    "Knx.C136_violated_transport",
    "Knx.C136_violated_device",
    "Knx.C136_violated_group",
    "Knx.C136_violated_value",
    "Knx.C136_partial",
    "Knx.C136_read_write",
    "Knx.C136_datagram_partial",
    "Knx.C136_blocks_iff",
    "Knx.C136_violated_block"
   ],
   "note": "C136_request_iff, C136_apdu_iff, C136_blocks_iff: exactly which requests, application layer messages and description blocks have the same octets; C136_partial: writes to groups in range never collide. C136_violated_transport, C136_violated_device, C136_violated_group, C136_violated_value, C136_violated_block: different ones with the same octets."
  },
  {
   "property": "C137",
   "status": "proved",
   "theorems": [
    "Knx.C137_iff",
    "Knx.C137_shortest",
    "Knx.C137_zeros"
   ],
   "note": "C137_iff: the accepted texts; C137_shortest: the printed text is the shortest and the only one of its length; C137_zeros: any number of zeros before a text."
  },
  {
   "property": "C138",
   "status": "partial",
   "theorems": [
    "Knx.C138_partial",
    "Knx.C138_state_iff",
    "Knx.C138_state_any",
    "Knx.C138_search_iff",
    "Knx.C138_connect_iff",
    "Knx.C138_disconnect_iff",
    "Knx.C138_feature_iff",
    "Knx.C138_tunnel_iff",
    "Knx.C138_any",
    "Knx.C138_violated_tunnel",
    "Knx.C138_violated_state"
   ],
   "note": "C138_partial: six kinds without exceptions; C138_state_iff, C138_search_iff, C138_connect_iff, C138_disconnect_iff, C138_feature_iff, C138_tunnel_iff: exactly which octets do not matter; C138_state_any, C138_any: they may be anything, within the limits of the two lengths that are checked. C138_violated_state, C138_violated_tunnel: different packets accepted as the same message. Missing: search responses and description blocks."
  }
 ]
}