#!/usr/bin/env python3
"""Writes MANIFEST.json; edit CLAIMS below."""
import json, os, re
ROOT = os.path.dirname(os.path.dirname(os.path.abspath(__file__)))
P, Q = "proved", "partial"
CLAIMS = [
 ("C01", P, ["C01_parseURI_total"], ""),
 ("C02", P, ["C02_parseURI_grammar", "C02_grammar_unambiguous"], ""),
 ("C03", Q, ["C03_uri_round_trip_iff", "C03_uri_round_trip_partial", "C03_parsed_uri_is_legal", "C03_header_ampersand_lost",
             "C03_pass_without_user_lost", "C03_empty_name_unparseable"],
  "false as stated: '&' in URI headers is not escaped; proved for all other bytes"),
 ("C04", Q, ["C04_uri_text_confined", "C04_no_own_delimiter", "C04_header_ampersand_unescaped"],
  "false for '&' in URI headers; proved for all other delimiters and positions"),
 ("C07", P, ["C07_parseMsg_never_panics"], ""),
 ("C08", P, ["C08_parseMsg_terminates"], "within 10 * n + 1 machine steps for n bytes"),
 ("C09", P, ["C09_no_smuggling", "C09_phrase_smuggles"],
  "the reason phrase, which is not a header, does carry decoded line breaks into the output"),
 ("C10", Q, ["C10_request_or_response_partial", "C10_status_below_100"],
  "false for statuses 000-099, which are accepted; all the rest is proved"),
 ("C56", P, ["C56_offset_inside", "C56_error_text"], "an offset at a CR or LF is shown without a caret"),
 ("C11", Q, ["C11_accepted_text", "C11_body_partial", "C11_wrong_length_partial", "C11_length_wraps"],
  "false for lengths of 2^63 and more: the number is computed modulo 2^64; proved for smaller ones"),
 ("C12", P, ["C12_case_insensitive"], ""),
 ("C13", Q, ["C13_lines_in_order", "C13_comma_via", "C13_comma_addr_partial", "C13_space_after_separator_rejected"],
  "proved for any number and grouping of lines and of comma separated Vias; for addresses false when a URI without angle brackets is followed by a separator and a blank: such messages are rejected; proved otherwise"),
 ("C14", Q, ["C14_read_back", "C14_round_trip_iff", "C14_message_round_trip_partial", "C14_changed", "C14_unreadable",
   "C14_ipv6_via_unreadable"],
  "false as stated; for every message in the library's grammar the message read back is given exactly, and it is the one written if and only if no field was left to a default and none of those written wrongly is used"),
 ("C15", Q, ["C15_addr_param_iff", "C15_via_param_iff", "C15_display_iff", "C15_lost"],
  "false as stated; the theorems say exactly which values and display names are read back unchanged, for every byte string"),
 ("C57", Q, ["C57_extension_accepted_partial", "C57_prefix_names_rejected"],
  "false for names with which a known name begins: these are always rejected; proved for all others"),
 ("C60", Q, ["C60_compact_same_partial", "C60_own_field_partial", "C60_compact_length_clobbers"],
  "false for l, which also sets Max-Forwards, Expires and Min-Expires; proved for all other names"),
 ("C61", Q, ["C61_body_opaque_partial", "C61_blank_body_rejected"],
  "false for a body that begins with a space or a tab: always rejected; proved for all others"),
 ("C17", P, ["C17_get_latest"], ""),
 ("C18", P, ["C18_insertion_order"], ""),
 ("C19", P, ["C19_sdp_parse_total"], ""),
 ("C20", P, ["C20_sdp_usable", "C20_blank_address_accepted"], ""),
 ("C21", P, ["C21_sdp_iff", "C21_sdp_described", "C21_lines_unique", "C21_codec_order"], ""),
 ("C22", P, ["C22_sdp_round_trip", "C22_sdp_reparse", "C22_no_codecs_unreadable", "C22_both_directions_lost",
   "C22_empty_other_lost", "C22_same_number_lost", "C22_blanks_filled"], "the theorems ending in _unreadable and _lost show that conditions of WellFormed are needed"),
 ("C75", P, ["C75_new_read", "C75_codecs_ok", "C75_port_cut"], "net.IP.String is a parameter: the text of the address"),
 ("C42", Q, ["C42_at_delivery", "C42_kept_partial", "C42_short_kept_partial", "C42_overwritten"],
  "false: extension header values and payloads that are not SDP are slices of the receive buffer; proved for everything else in a message"),
 ("C44", Q, ["C44_uri_copy_equal", "C44_via_copy_equal", "C44_addr_copy_equal_partial", "C44_msg_copy_equal_partial",
   "C44_new_nodes", "C44_original_kept_partial", "C44_copy_kept_partial", "C44_branch_keeps_original", "C44_display_lost",
   "C44_param_shared", "C44_xheader_shared"],
  "false: copies lose display names and share parameter, header and payload nodes; proved for URI, address, Via and message nodes"),
 ("C05", P, ["C05_unescape_escape"], ""),
 ("C06", P, ["C06_charsets_are_rfc_sets"], ""),
 ("C16", Q, ["C16_quoted_text_partial", "C16_quoted_text_no_bare_lf_partial", "C16_bare_lf_passes"],
  "false as stated: a bare LF passes unescaped"),
 ("C23", P, ["C23_header_round_trip"], ""),
 ("C24", P, ["C24_read_total"], ""),
 ("C25", P, ["C25_event_round_trip"], ""),
 ("C26", P, ["C26_dtmf_tables"], ""),
 ("C27", P, ["C27_sequence_numbers", "C27_sequence_numbers_all_ok", "C27_timestamps"],
  "a number may be reused after a failed DTMF write"),
 ("C28", P, ["C28_dtmf_event", "C28_invalid_digit", "C28_first_write_fails", "C28_stops_at_failure"], ""),
 ("C29", P, ["C29_frames"], ""),
 ("C33", P, ["C33_listen", "C33_every_port"], ""),
 ("C34", P, ["C34_response_echoes", "C34_phrase", "C34_response_matches", "C34_two_vias_do_not_match"], ""),
 ("C35", P, ["C35_ack", "C35_cancel", "C35_bye"], ""),
 ("C36", P, ["C36_response_match", "C36_ack_match", "C36_same_branch", "C36_same_host_port"], ""),
 ("C37", P, ["C37_request_routing", "C37_next_hop_unique"], ""),
 ("C38", P, ["C38_response_routing", "C38_hop_unique"], ""),
 ("C39", P, ["C39_strict_undone", "C39_round_trip"], ""),
 ("C40", Q, ["C40_receive_panics_iff_partial", "C40_no_via_crashes"],
  "false as stated: the theorem says exactly which messages crash the receiver"),
 ("C41", P, ["C41_response_returns", "C41_supplied_received_kept"], ""),
 ("C43", P, ["C43_populate", "C43_filled"], ""),
 ("C45", Q, ["C45_transport_partial", "C45_transport_exact", "C45_one_becomes_70", "C45_dialog"],
  "false as stated: Transport.Send sends Max-Forwards 1 as 70; proved for Transport.Send otherwise, and for dialogs"),
 ("C46", Q, ["C46_states_forward_partial", "C46_answered_once_partial", "C46_hangup_last", "C46_late_response", "C46_late_response_always"],
  "false when a provisional response arrives after a later one; proved otherwise"),
 ("C47", Q, ["C47_transmissions_bounded", "C47_silent_partial", "C47_provisional_stops", "C47_no_forwards_left", "C47_service_unavailable",
   "C47_forwards_used_up", "C47_failover_stuck"],
  "false: turning to another address deadlocks unless a message is just being received; false after a 503, which forgets the "
  "other addresses, and when Max-Forwards is used up by retransmissions"),
 ("C48", Q, ["C48_wait_ends", "C48_wait_blocks", "C48_failed_socket", "C48_closed_partial", "C48_closed_failed_partial",
   "C48_never_closed"],
  "false: unless a message is just being received, the dialog waits for ever for its receiver; proved otherwise, and when the "
  "socket failed"),
 ("C49", P, ["C49_close_returns", "C49_close_after_error_returns", "C49_close_holding_blocks",
   "C49_close_after_no_error_blocks"], "the two last theorems show that the conditions are needed"),
 ("C50", Q, ["C50_request_answered_partial", "C50_out_of_order", "C50_reinvite_repeated", "C50_reinvite_until_ack",
   "C50_responses_bounded",
   "C50_ack_answered", "C50_response_answered", "C50_reinvite_unacknowledged", "C50_version_answered_always",
   "C50_stranger_answered_always", "C50_forwards_answered_always", "C50_reinvite_unacknowledged_always"],
  "false: ACKs and responses of other calls are answered; session descriptions without audio crash"),
 ("C51", Q, ["C51_final_acknowledged_partial", "C51_after_hangup", "C51_after_hangup_always", "C51_refusal_unacknowledged"],
  "false after the application hung up"),
 ("C52", Q, ["C52_no_crash_partial", "C52_refused", "C52_video_only", "C52_reinvite_no_contact",
   "C52_bye_redirected_nowhere", "C52_no_via", "C78_only_fatal", "C78_refused_crashes", "C78_response_crashes",
   "C78_offer_crashes", "C78_hangup_crashes"],
  "false: five ways to crash a dialog; proved that there is no other, and that four of them crash every call that is going"),
 ("C53", Q, ["C53_cancel", "C53_bye_partial", "C53_bye_or_told", "C53_cancel_after_answer", "C53_cancel_after_answer_always", "C53_answer_missed",
   "C53_bye_to_self", "C53_bye_stuck", "C53_answer_missed_always", "C53_bye_to_self_always", "C53_bye_stuck_always"],
  "false after late responses and offers of the other side, and when turning to another address deadlocks"),
 ("C59", P, ["C59_told_why", "C59_not_before", "C59_one_end", "C59_socket_failed", "C59_second_socket_failed", "C59_no_second_socket"], ""),
 ("C62", Q, ["C62_provisional", "C62_answered_partial", "C62_answered_again", "C62_hung_up", "C62_refused_partial",
   "C62_unavailable", "C62_accepted_refused", "C62_accepted_refused_always", "C62_early_invite", "C62_early_invite_always"],
  "false for 503, for successes other than 200, and when the other side sends an INVITE before it answers"),
 ("C63", P, ["C63_offered", "C63_reinvite"], ""),
 ("C64", Q, ["C64_followed_partial", "C64_bye_redirected", "C64_bye_redirected_always"],
  "false for BYE: an INVITE is sent instead; proved for INVITE"),
 ("C65", Q, ["C65_ports", "C65_description", "C65_hosts_partial", "C65_one_address", "C65_contact", "C65_first_interface", "C65_failover_host"],
  "false for hosts after failover to a server reached through another interface; proved for ports, and with one interface"),
 ("C66", P, ["C66_bye", "C66_bye_closes"], ""),
 ("C67", Q, ["C67_stray_response", "C67_stranger_partial", "C67_other_version", "C67_no_forwards"],
  "false for messages with another version or with Max-Forwards 0: they end the call"),
 ("C68", P, ["C68_unresolved", "C68_undialled"], ""),
 ("C69", P, ["C69_destination", "C69_invite_direct", "C69_route_forgotten"],
  "also shown: unlike RFC 3261 requires, an INVITE of the other side replaces the route set of the call"),
 ("C70", P, ["C70_delivered"], "datagrams that crash the receiver instead: C40"),
 ("C71", Q, ["C71_request", "C71_response", "C71_sent", "C71_success", "C71_no_port_means_port_zero"],
  "false for next hops without a port: these are sent to port 0, not 5060; proved otherwise"),
 ("C72", P, ["C72_names_socket", "C72_comes_back"],
  "recognising its own Contact in a route needs a Contact given by address"),
 ("C73", Q, ["C73_answer_found_partial", "C73_5060_not_recognised", "C73_portless_via_changed"],
  "false for a sender at port 5060, whose answers are never recognised, and for the text of a Via without a port, which is answered with ':0'; proved otherwise"),
 ("C54", P, ["C54_shapes", "C54_distinct"], ""),
 ("C55", P, ["C55_route_address"], ""),
 ("C74", P, ["C74_new_request", "C74_sent"],
  "Display names are not copied (see C44); a generated CSeq number of 0 is replaced when the request is sent."),
 ("C58", Q, ["C58_new_request_branch_partial", "C58_transport_reuses_branch", "C58_dialog_branches"],
  "false as stated for requests sent with the transport's own Via; proved for dialogs"),
 ("C76", P, ["C76_message_grammar", "C76_unambiguous", "C76_rejects"],
  "The grammar is Spec.MessageText; it is the parser's own, not the whole of RFC 3261 section 25.1."),
 ("C77", Q, ["C77_passed_on_partial", "C77_unchanged_partial", "C77_settled", "C77_conditions_needed"],
  "false for messages listed in C77_conditions_needed; proved for all that satisfy Spec.Relayable, the list of exactly these exceptions"),
 ("C30", P, ["C30_ulaw_ranges", "C30_encode_decode", "C30_error", "C30_saturation", "C30_symmetry",
             "C30_monotone"], ""),
 ("C31", P, ["C31_mix_saturates", "C31_unaligned_faults"],
  "for 16-byte aligned frames, the others fault"),
 ("C32", Q, ["C32_noise_in_table_partial", "C32_large_seed_falls_back"],
  "false for seeds within 54773 of the ends of the 64-bit range"),
    ("C78", P, ["C78_only_fatal", "C78_refused_crashes", "C78_response_crashes", "C78_offer_crashes", "C78_hangup_crashes"],
     "Both directions: without a fatal message (Spec.Fatal) no datagrams crash the dialog, and each kind of fatal message, and the ICMP error, crashes every running call. The receiver's own panic on a request without Via is C40."),
    ("C79", P, ["C79_exit_status", "C79_ends", "C79_rtp_error_crashes", "C79_no_error_crashes", "C79_placeable"],
     "For the loop of fone/main.go composed with the dialog; the news of the dialog arrive in order (Spec.Listens), everything else at any time. A panic of the dialog's own goroutine is C78. C79_rtp_error_crashes: once the RTP receiver fails the phone can be crashed by its own closed channels."),
    ("C80", P, ["C80_to_peer", "C80_offered", "C80_one_stream", "C80_talks", "C80_dials", "C80_plays", "C80_commands", "C80_one_reader"],
     "For the loop of fone/main.go composed with the dialog (C63) and the RTP session (C27). The address is what the description says; that net.ParseIP yields nil for a host name is outside the model."),
    ("C81", P, ["C81_frame", "C81_silent", "C81_raw", "C81_stream"], "Composes C23, C27, C28, C29 and C30."),
    ("C82", P, ["C82_work_at_most_quadratic", "C82_blanks_cost_quadratic", "C82_work_not_linear"], "Constant 880 with units of one pass, action, byte or list node. The lower bound is a finding: white space after a display name makes the parser quadratic."),
    ("C83", Q, ["C83_own_formats", "C83_wanted_partial", "C83_unheeded", "C83_unwanted"], "The half about the phone's own INVITE is proved for all executions; the half about the other side's description is false of the code in every call, and proved for descriptions that do not restrict the media."),
    ("C84", Q, ["C84_own_section_partial", "C84_later_address_ignored", "C84_section_address_ignored", "C84_later_rtpmap_ignored", "C84_direction_shared", "C84_mixed_up"], "Proved for descriptions whose sections do not contradict each other; for the others it is false of the code, which is proved for every description."),
    ("C85", P, ["C85_unknown_line"], "Any line, any position, any accepted description."),
    ("C86", Q, ["C86_peer_only_iff_partial", "C86_losses_partial", "C86_strangers_heard", "C86_as_delivered"], "False of the code for every stranger and every reordering; C86_peer_only_iff_partial says exactly when strangers are not heard, C86_losses_partial covers networks that only lose packets."),
    ("C87", Q, ["C87_blocked_iff", "C87_at_once_partial", "C87_obeyed_partial", "C87_fifth", "C87_unread"], "Holds while at most four requests wait (C87_at_once_partial, C87_obeyed_partial); C87_blocked_iff says exactly when application and dialog block each other, C87_fifth that it happens from every state in which the dialog is busy with news or has ended."),
    ("C88", Q, ["C88_answers_received", "C88_never_answered", "C88_offer_unanswered"], "The first half is proved for every call; the second half is false of the code for every call and every offer."),
    ("C89", Q, ["C89_told", "C89_any_text", "C89_any_text_told"], "C89_told gives the text for every response and says exactly when it is one line; that it always is is false of the code (C89_any_text, for every response and every text)."),
    ("C90", Q, ["C90_spaced", "C90_given_up", "C90_silent_partial"], "Spacing and giving up are proved for every call and every clock. The report about a silent party has the conditions of C47: writes succeed, Max-Forwards suffices, and failover does not block (C47_failover_stuck)."),
    ("C91", P, ["C91_always_a_sample", "C91_points"], "float64 arithmetic is exact arithmetic with a rounding of which only the precision of 53 bits is known"),
    ("C92", P, ["C92_len_last", "C92_via_last", "C92_reversed", "C92_detach", "C92_strict_route", "C92_fix_route", "C92_fix_shared"], "on a heap of nodes; C92_strict_route and C92_fix_route also connect the heap with the model of RouteMessage and fixMessagesFromStrictRouters that the other theorems use"),
    ("C93", P, ["C93_carried", "C93_caller", "C93_phone"], "For every execution. The target, Via, Route, Contact and Max-Forwards, which a dialog does change, are the subject of C45, C64, C65 and C69."),
    ("C94", P, ["C94_readable", "C94_phone"], "For every execution. The conditions on the world, the INVITE and the messages received are in Spec/Readable.lean and Spec/RoundTrip.lean. A socket with an IPv6 address is excluded: its Via cannot be read (C14_ipv6_via_unreadable)."),
    ("C95", Q, ["C95_heard", "C95_understood_partial", "C95_rings_partial", "C95_answered_partial", "C95_over_partial", "C95_refused_partial", "C95_5060_deaf"], "For every execution of the caller's dialog and every answer. Callers at port 5060 are excluded, for which the property is false of the code (C95_5060_deaf, for every call). An INVITE must be accepted or refused with a Contact (C62)."),
    ("C96", Q, ["C96_countdown", "C96_limited", "C96_redirects", "C96_attempts_not_limited", "C96_length_not_limited"], "The limit by Max-Forwards holds for every execution. The documented limits do not hold of the code (C96_attempts_not_limited and C96_length_not_limited, for every call that can be placed)."),
    ("C97", P, ["C97_placed"], "For every list of addresses. Writing must succeed, a Contact given must have an address."),
    ("C98", Q, ["C98_bye_partial", "C98_answered_partial", "C98_5060_unheard"], "For every execution of the dialog and every request. Programs whose Via has port 5060 are excluded, for which the property is false of the code (C98_5060_unheard, for every request). The request must come without a Route and be numbered in order; a session description in it must have audio; ACK is not answered (C50)."),
    ("C99", Q, ["C99_heard", "C99_answered", "C99_call_partial", "C99_cancel", "C99_resent"], "For every transport and every message. C99_answered says exactly when an answer is recognised: the Via must not name port 5060 (as C73, C95). C99_call_partial therefore excludes that port; it also supposes that the random CSeq is not 0, as do C99_cancel and C99_resent (a CSeq of 0 is taken for none, and drawn anew at each transmission). Requests must have one Via for their answers to be recognised. Texts longer than 2048 bytes are cut off by the receiver."),
    ("C100", P, ["C100_whole_call", "C100_bye_goes"], "Composes C97, C95 and C62 with the liveness of the BYE. The conditions of the statement are hypotheses: WellServed and LeadsTo (Spec/WholeCall.lean), NoneAt5060 and Placed (Spec/Exchange.lean); the INVITE has no Record-Route. That the BYE may not leave when the old socket has nothing to deliver is C53_bye_stuck."),
    ("C101", P, ["C101_other_hangs_up", "C101_refused", "C101_given_up", "C101_cancel_goes"], "Composes C97, C95, C98, C62 and C53. The conditions are hypotheses, as for C100: WellServed (Spec/WholeCall.lean), NoneAt5060 and Placed (Spec/Exchange.lean), FromPeer (Spec/Asked.lean). A refusal must come with a Contact; without one the dialog ends with an error of its own and sends no ACK (C62). C101_cancel_goes holds for every history."),
]
def main():
    src = ""
    for d, _, fs in os.walk(os.path.join(ROOT, "lean", "Verif")):
        for f in fs:
            if f.endswith(".lean"):
                src += open(os.path.join(d, f)).read()
    out = []
    for p, st, ths, note in sorted(CLAIMS, key=lambda c: int(c[0][1:])):
        for t in ths:
            if not re.search(r"theorem %s\b" % re.escape(t), src):
                raise SystemExit("missing theorem " + t)
        out.append(json.dumps({"property": p, "status": st, "theorems": ths, "note": note}))
    open(os.path.join(ROOT, "MANIFEST.json"), "w").write('{"claims": [\n' + ",\n".join(out) + "\n]}\n")
    named = set(re.findall(r"theorem (C\d\d+_\w+)", src))
    rest = named - {t for c in CLAIMS for t in c[2]}
    if rest:
        print("not in manifest:", sorted(rest))
main()
