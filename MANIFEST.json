{
 "claims": [
  {
   "property": "C01",
   "status": "proved",
   "theorems": [
    "Osdp.RingBuf.C01_ring_buffer_is_fifo",
    "Osdp.RingBuf.C01_fifo_conserves",
    "Osdp.RingBuf.C01_receive",
    "Osdp.RingBuf.C01_scan"
   ],
   "note": "for every history of operations on the ring buffer; the receiver model's use of a list in its place is justified by C01_receive and C01_scan"
  },
  {
   "property": "C02",
   "status": "proved",
   "theorems": [
    "Osdp.Crc.C02_crc_is_polynomial_crc",
    "Osdp.Crc.C02_crc_detects_bursts",
    "Osdp.Crc.C02_crc_detects_line_bursts",
    "Osdp.Crc.C02_frame_detects_line_bursts",
    "Osdp.Crc.C02_frame_burst15_undetected"
   ],
   "note": "value and burst detection (both bit orders) for every message; over a whole frame including the CRC field the exact limit is 14 line bits (15 is refuted by a witness)"
  },
  {
   "property": "C03",
   "status": "proved",
   "theorems": [
    "Osdp.Crc.C03_checksum_sums_to_zero",
    "Osdp.Crc.C03_checksum_detects_byte_change",
    "Osdp.Crc.C03_frame_byte_change"
   ],
   "note": ""
  },
  {
   "property": "C04",
   "status": "proved",
   "theorems": [
    "Osdp.Phy.C04_plain_round_trip"
   ],
   "note": "send and receive side composed: any body, any division into reads, commands, replies and handshake packets; nothing is sent when a SKIP_MARK CP holds a stale mark flag (t.misaligned)"
  },
  {
   "property": "C05",
   "status": "partial",
   "theorems": [
    "Osdp.PdM.C05_pd",
    "Osdp.CpM.C05_cp_partial",
    "Osdp.CpM.C05_cp_overlooked"
   ],
   "note": "PD: every reply of every history is at most 256 bytes and at most the size of the last ACURXSIZE accepted (if not 0). CP: likewise for the last size read from PDCAP replies; missing: entries behind one with a function code above 16 are not read by the code, so a size announced there is ignored (witness C05_cp_overlooked)."
  },
  {
   "property": "C06",
   "status": "partial",
   "theorems": [
    "Osdp.C06_pd_receive_in_bounds_partial",
    "Osdp.C06_one_more_byte_suffices_partial",
    "Osdp.C06_receive_overflow"
   ],
   "note": "Any PD history, any stream: no out-of-bounds access in the receiver unless the bytes contain a packet start with length field 256; with a 257-byte buffer none at all. The code overflows by one byte on a marked 256-byte packet (proved for PD and CP)."
  },
  {
   "property": "C07",
   "status": "proved",
   "theorems": [
    "Osdp.Phy.C07_packet_division_independent",
    "Osdp.Phy.C07_stream_division_independent",
    "Osdp.Phy.C07_cut_mark_differs"
   ],
   "note": "every packet that fits the buffer, every division (also between the mark and the start byte); arbitrary byte streams under the condition that no refresh falls between a mark and the first start byte, with a witness that the condition matters; a packet with a security block must have at least 8 bytes"
  },
  {
   "property": "C08",
   "status": "partial",
   "theorems": [
    "Osdp.PdM.C08_foreign_command_ignored_partial",
    "Osdp.PdM.C08_foreign_reply_ignored_partial",
    "Osdp.PdM.C08_embedded_command_executed"
   ],
   "note": "A command for another device is dropped whole without effect. A reply of another device is dropped without effect if no start byte occurs inside it. Violation proved: a packet embedded in the body of another device's reply is executed, because the PD drops only the header and rescans the body."
  },
  {
   "property": "C09",
   "status": "proved",
   "theorems": [
    "Osdp.PdM.C09_pd_bad_packet_ignored",
    "Osdp.PdM.C09_pd_acts_only_on_intact",
    "Osdp.CpM.C09_cp_bad_packet_ignored",
    "Osdp.CpM.C09_cp_acts_only_on_intact",
    "Osdp.CpM.C09_cp_reply_intact",
    "Osdp.PdM.C09_bad_packet_ends_session"
   ],
   "note": "PD: a damaged packet has no effect outside the PD, and over any history every effect is due to an intact packet for this PD. CP: a damaged reply of any contents teaches the CP nothing, leaves the key alone, delivers no event and confirms no command; over any history the same as long as the bytes received contain no intact packet of this PD. An event held back from an earlier reply may be delivered in the same visit (C57_stale). Also shown: a damaged packet ends the secure channel of a PD."
  },
  {
   "property": "C10",
   "status": "partial",
   "theorems": [
    "Osdp.CpM.C10_partial",
    "Osdp.CpM.C10_zero",
    "Osdp.CpM.C10_skip"
   ],
   "note": "Every packet in every history carries the number due (0 at a restart, then 1,2,3 cyclically, repeated only on BUSY) provided no attempt to send CHLNG, SCRYPT or the install-mode KEYSET fails; C10_skip shows a failed CHLNG send loses a number without a restart."
  },
  {
   "property": "C100",
   "status": "partial",
   "theorems": [
    "Osdp.CpM.C100_partial",
    "Osdp.CpM.C100_interrupted",
    "Osdp.CpM.C100_led"
   ],
   "note": "Proved over all histories for the CP's own commands (C100_partial). Commands of the application are not held back: each is sent between the fragments (C100_interrupted for all histories, C100_led)."
  },
  {
   "property": "C101",
   "status": "partial",
   "theorems": [
    "Osdp.CpM.C101_partial",
    "Osdp.CpM.C101_session",
    "Osdp.CpM.C101_kept",
    "Osdp.CpM.C101_leak"
   ],
   "note": "proved with OSDP_FLAG_ENFORCE_SECURE, and for every CP as long as the session lasts; refuted without the flag: the transfer outlives the session and goes on in the clear (C101_leak)"
  },
  {
   "property": "C102",
   "status": "partial",
   "theorems": [
    "Osdp.PdM.C102_pd_partial",
    "Osdp.CpM.C102_cp_partial",
    "Osdp.PdM.C102_pd_leak",
    "Osdp.CpM.C102_cp_leak"
   ],
   "note": "proved for ends with OSDP_FLAG_ENFORCE_SECURE; refuted without the flag: the queues outlive the session (C102_pd_leak, C102_cp_leak)"
  },
  {
   "property": "C103",
   "status": "partial",
   "theorems": [
    "Osdp.PdM.C103_pd",
    "Osdp.PdM.C103_partial",
    "Osdp.PdM.C103_noise",
    "Osdp.CpM.C103_cp"
   ],
   "note": "The property fails. C103_pd refutes it for every PD and cipher (a plain POLL with sequence number 0 ends the session), C103_noise likewise (any damaged packet, even for another device, ends it), C103_cp by a plain NAK at a CP. C103_partial is the part that holds: silence, intact packets of other devices and incomplete packets leave a PD's session. Missing from the positive part: complete packets for the PD."
  },
  {
   "property": "C104",
   "status": "partial",
   "theorems": [
    "Osdp.CpM.C104_offline",
    "Osdp.CpM.C104_partial"
   ],
   "note": "The property fails. C104_offline: at every CP any complete packet with a wrong check value, in place of the awaited answer, takes an online PD offline for 300 s and ends its session. C104_partial is the part that holds: while no complete packet has arrived the PD stays online and in its session, and the command is repeated when the time for the answer is over. Missing from the positive part: complete packets with a wrong check value, for which it is false."
  },
  {
   "property": "C105",
   "status": "partial",
   "theorems": [
    "Osdp.CpM.C105_other",
    "Osdp.CpM.C105_echo",
    "Osdp.CpM.C105_partial"
   ],
   "note": "The property fails. C105_other: at every CP any intact answer of another PD takes the online PD whose answer is awaited offline for 300 s; C105_echo: so does any command on the line, such as the echo of its own. C105_partial is the part that holds: bytes without a start byte leave the PD online and in its session. Missing from the positive part: foreign packets with a start byte, for which it is false."
  },
  {
   "property": "C106",
   "status": "partial",
   "theorems": [
    "Osdp.CpM.C106_partial",
    "Osdp.CpM.C106_number",
    "Osdp.CpM.C106_late"
   ],
   "note": "The property fails. C106_late: from setup, a PD whose answer to one POLL comes after the time limit is taken offline, although its answers are right; C106_number: at every CP any answer of the PD with the number of another command has this effect. C106_partial is the part that holds: until the repetition is due nothing is read, sent or changed. Missing from the positive part: what follows the repetition, for which it is false."
  },
  {
   "property": "C11",
   "status": "partial",
   "theorems": [
    "Osdp.PdM.C11_acceptance_partial",
    "Osdp.PdM.C11_sequence_error_answered",
    "Osdp.PdM.C11_rejected_packet_moves_counter"
   ],
   "note": "Over any history: every refresh does nothing, or handles an acceptable number, or refuses without effect; refusals are answered with NAK(sequence error). Violation proved: a refused packet moves the counter, so what is accepted next changes."
  },
  {
   "property": "C12",
   "status": "partial",
   "theorems": [
    "Osdp.CpM.C12_partial",
    "Osdp.CpM.C12_parts_partial",
    "Osdp.CpM.C12_numbered"
   ],
   "note": "Proved for BUSY replies in the form the protocol prescribes (sequence number 0, no security block), arriving whole (C12_partial) or divided between any number of visits (C12_parts_partial): nothing reported, nothing sent for 800 ms whatever API calls and visits happen, then byte for byte the same packet, and again for the next BUSY. A BUSY reply that carries the command's number makes the CP repeat with the next number (C12_numbered). Not covered: file transfer pieces, OPT_OSDP_SKIP_MARK_BYTE, BUSY behind other bytes."
  },
  {
   "property": "C13",
   "status": "partial",
   "theorems": [
    "Osdp.CpM.C13_partial",
    "Osdp.CpM.C13_budget"
   ],
   "note": "In every history: at most 8 repetitions of the command in hand, none earlier than 800 ms after its answer was missed, none missed before 200 ms, and every missed answer leads to a repetition unless 8 answers were missed since the last restart. The full budget per command fails (C13_budget): the counter is not reset by an answer."
  },
  {
   "property": "C14",
   "status": "proved",
   "theorems": [
    "Osdp.Aes.C14_decrypt_encrypt_block",
    "Osdp.C14_cbc_decrypt_encrypt"
   ],
   "note": "bundled tinyaes, every key, IV and block sequence"
  },
  {
   "property": "C15",
   "status": "proved",
   "theorems": [
    "Osdp.C15_roundtrip",
    "Osdp.C15_roundtrip_aes",
    "Osdp.C15_length",
    "Osdp.C15_injective"
   ],
   "note": "every payload, for any invertible block cipher and for the bundled AES"
  },
  {
   "property": "C16",
   "status": "proved",
   "theorems": [
    "Osdp.Link.C16"
   ],
   "note": "Both complete state machines, any number of exchanges and any interleaving of API calls and quiet visits, arbitrary cipher and keys; the line delivers every packet whole and exactly once and neither end times out (retransmissions are C12/C13). The theorem also covers links in the clear (s = false)."
  },
  {
   "property": "C17",
   "status": "partial",
   "theorems": [
    "Osdp.PdM.C17_authenticated_partial",
    "Osdp.PdM.C17_forged",
    "Osdp.PdM.C17_forged_keyset"
   ],
   "note": "every command a PD executes while its secure channel is active comes from an intact packet for it which is authenticated by the session MAC, or has sequence number 0 (ends the session first), or has security block type 0x11..0x14; the last case is a violation (C17_forged, C17_forged_keyset): MACs are not checked for those types"
  },
  {
   "property": "C18",
   "status": "partial",
   "theorems": [
    "Osdp.CpM.C18_partial",
    "Osdp.CpM.C18_events_partial",
    "Osdp.CpM.C18_forged"
   ],
   "note": "C18_partial: in every history, a reply taken in while the secure channel is active is an intact received packet from the PD and is a plain NAK, a plain ACK of a KEYSET, carries the session MAC, or has a security block of type 0x11..0x14; C18_events_partial: delivered events come only from the last two kinds. C18_forged: a card read with security block type 0x14 and no MAC is delivered in an active session. Missing: the failing case (types 0x11..0x14)."
  },
  {
   "property": "C19",
   "status": "proved",
   "theorems": [
    "Osdp.PdM.C19_bad_mac_ends_session"
   ],
   "note": "PD: secured packet (types 0x15..0x18) with wrong MAC, wrong block count or wrong padding is not executed, answered with plain NAK(6), session over; both CRC and checksum packets, any length of the security block"
  },
  {
   "property": "C20",
   "status": "partial",
   "theorems": [
    "Osdp.Link.C20_partial",
    "Osdp.Link.C20_cmac"
   ],
   "note": "For every block cipher, base key, pair of random numbers, address, flags and visiting times: a CP about to challenge and a PD with the same base key (own key or, in installation mode, the default key) exchange CHLNG, CCRYPT, SCRYPT, RMAC_I, and if each packet is delivered both ends have an active channel with the session keys and initial reply MAC of the protocol; the CP is then online and in step with the PD (so C16 applies), or goes on to install its key. Missing: identical command MAC. C20_cmac shows that an older session's command MAC survives the handshake at the PD (harmless: overwritten before use)."
  },
  {
   "property": "C21",
   "status": "proved",
   "theorems": [
    "Osdp.CpM.C21",
    "Osdp.CpM.C21_online",
    "Osdp.CpM.C21_fresh",
    "Osdp.CpM.C21_install"
   ],
   "note": "In every history from set up on, an active secure channel at the CP implies that the last challenge was answered with the cryptogram of the base key and the CP's random number, and that the session keys stem from the two. The base key is the one the CP holds; only while that key is being installed (state SET_SCBK) it may be the default key."
  },
  {
   "property": "C22",
   "status": "partial",
   "theorems": [
    "Osdp.PdM.C22_active_partial",
    "Osdp.PdM.C22_no_challenge",
    "Osdp.PdM.C22_replay"
   ],
   "note": "An active channel was opened by a cryptogram that verifies against keys derived from the base key and an issued challenge, unless no challenge was ever issued (zero keys). Violations: SCRYPT without CHLNG after boot, replay of SCRYPT."
  },
  {
   "property": "C23",
   "status": "partial",
   "theorems": [
    "Osdp.PdM.C23_no_plaintext_operation",
    "Osdp.PdM.C23_refused_answered_partial",
    "Osdp.PdM.C23_crash"
   ],
   "note": "No command callback, no event release without active channel: proved for every reachable state and input. NAK(6) answer proved for assigned ids; unassigned ids make the PD dereference NULL (witness C23_crash)."
  },
  {
   "property": "C24",
   "status": "partial",
   "theorems": [
    "Osdp.CpM.C24_partial",
    "Osdp.CpM.C24_setup",
    "Osdp.CpM.C24_late"
   ],
   "note": "Holds (for all histories: online implies an active channel opened by proof of the held key; otherwise only set-up commands are sent; events only then) provided the flag has been set since before the PD came online. Setting it at run time leaves a PD online in the clear (C24_late)."
  },
  {
   "property": "C25",
   "status": "proved",
   "theorems": [
    "Osdp.PdM.C25_own_key_only"
   ],
   "note": "For every history of a PD with its own key and no install mode, the session keys are the initial zeros or derived from a base key the PD held at an earlier moment."
  },
  {
   "property": "C26",
   "status": "proved",
   "theorems": [
    "Osdp.PdM.C26_keyset_installs",
    "Osdp.PdM.C26_install_mode_stays_off"
   ],
   "note": "A KEYSET accepted by the application is in force after the acknowledged refresh, install mode and default-key use are off, and install mode stays off in every later history."
  },
  {
   "property": "C27",
   "status": "proved",
   "theorems": [
    "Osdp.PdM.C27_key_change_authorised"
   ],
   "note": "For every configuration and history: the base key changes only in a refresh that sends a packet, and the new key is what an accepted KEYSET (type 1, length 16, received while the channel was active) left."
  },
  {
   "property": "C28",
   "status": "partial",
   "theorems": [
    "Osdp.CpM.C28_partial",
    "Osdp.CpM.C28_unsent"
   ],
   "note": "C28_partial: in every history of a CP set up with a key, the key changes only while online at the end of an exchange for a KEYSET, to the key of that command; either the KEYSET packet was transmitted and an ACK was heard in answer, or (contrary to the statement) the command could not be sent and the stale id of the previous reply was ACK. C28_unsent: concrete end-to-end run in which an unsent KEYSET (length field 17) replaces the key and CP and PD diverge for good. Missing: the failing case itself."
  },
  {
   "property": "C29",
   "status": "partial",
   "theorems": [
    "Osdp.PdM.C29_timeout",
    "Osdp.PdM.C29_last_use",
    "Osdp.PdM.C29_kept",
    "Osdp.PdM.C29_keepactive_no_effect"
   ],
   "note": "timeout after 8 s and last-use parts proved for every history; KEEPACTIVE part violated (C29_keepactive_no_effect)"
  },
  {
   "property": "C30",
   "status": "proved",
   "theorems": [
    "Osdp.Link.C30",
    "Osdp.Link.C30_sent"
   ],
   "note": "Every valid command (Spec/CmdWire: output, LED, buzzer, text, COMSET, MFG, KEYSET, status), every value of every field, in plain text or in a secure channel: from the head of the CP's queue the CP takes it, and whatever packet it then sends makes the PD's refresh call the application exactly once, with the part of the structure the wire format carries (carried). C30_sent: the packet does go out if the PD did not announce less than 95 bytes. Conditions: both ends between two exchanges (Issues), session not timed out, the PD's capability table covers the command, a PD that enforces security is in a secure channel. A refresh in which the application breaks the callback contract is not covered (no ok result)."
  },
  {
   "property": "C31",
   "status": "partial",
   "theorems": [
    "Osdp.Link.C31_partial",
    "Osdp.Link.C31_ascii"
   ],
   "note": "Raw card reads, key presses, status reports and manufacturer replies with every field value within limits (Spec/EventWire Valid), in plain text or in a secure channel: a POLL sent by an online CP to a PD with the event next in its queue; whatever the PD sends and the CP hears, the CP's callback runs for exactly one event, which equals the given one in every field the reply carries. Missing: card reads in ASCII format never arrive (C31_ascii); a CP that announced a receive buffer below 143 bytes. The CP must know the PD's numbers of inputs and outputs (C32)."
  },
  {
   "property": "C32",
   "status": "partial",
   "theorems": [
    "Osdp.Link.C32_partial",
    "Osdp.Link.C32_id",
    "Osdp.Link.C32_cap",
    "Osdp.Link.C32_kept",
    "Osdp.Link.C32_stale"
   ],
   "note": "Every identity whose fields fit their places in the reply, every list of capabilities with function codes 1..16 (implicit ones included), every state the PD can get into after setup without changing its capabilities, plain or secure, with anything else in between and afterwards until the next PDID/PDCAP: what getPdId/getCapability report is what the PD was set up with. Missing: a CP which knew a capability of an earlier PD at this place that the present one lacks keeps reporting it (C32_stale)."
  },
  {
   "property": "C33",
   "status": "proved",
   "theorems": [
    "Osdp.PdM.C33_refresh",
    "Osdp.PdM.C33_pd_asked_only_what_it_declared"
   ],
   "note": "for every history of operations of the PD, every command handed to the application is allowed by a declared capability"
  },
  {
   "property": "C34",
   "status": "partial",
   "theorems": [
    "Osdp.PdM.C34_rejected_is_nak_partial",
    "Osdp.PdM.C34_incapable_is_nak_partial",
    "Osdp.PdM.C34_rejected_acknowledged",
    "Osdp.PdM.C34_incapable_acknowledged"
   ],
   "note": "holds except for OUT, LED and BUZ commands, which are proved to be acknowledged when rejected or beyond the declared capability (and file transfers, where no reply is sent)"
  },
  {
   "property": "C35",
   "status": "partial",
   "theorems": [
    "Osdp.PdM.C35_malformed_is_refused_partial",
    "Osdp.PdM.C35_malformed_never_executed_partial",
    "Osdp.PdM.C35_surplus_acknowledged",
    "Osdp.PdM.C35_long_text_executed",
    "Osdp.PdM.C35_short_fragment_unanswered"
   ],
   "note": "holds for every length except: no record at all (OUT, LED, BUZ), surplus bytes after TEXT/ACURXSIZE/KEEPACTIVE, file transfer fragments; the exceptions are proved to violate the property"
  },
  {
   "property": "C36",
   "status": "partial",
   "theorems": [
    "Osdp.PdM.C36_at_most_one_reply",
    "Osdp.PdM.C36_silent",
    "Osdp.PdM.C36_exactly_one_reply_partial",
    "Osdp.PdM.C36_one_reply_secure_partial",
    "Osdp.PdM.C36_valid_command_unanswered"
   ],
   "note": "At most one reply per intact command addressed to the PD, over every history from setup (full). Exactly one reply proved for commands other than file transfer fragments, in the clear and in a secure session (there also for packets with a wrong MAC), when the CP's announced buffer is at least 164 bytes; the code leaves rejected file fragments and all commands after ACURXSIZE<69 unanswered (proved)."
  },
  {
   "property": "C37",
   "status": "partial",
   "theorems": [
    "Osdp.PdM.C37_partial",
    "Osdp.PdM.C37_history_partial",
    "Osdp.PdM.C37_long",
    "Osdp.PdM.C37_block",
    "Osdp.PdM.C37_unnamed",
    "Osdp.PdM.C37_lstat",
    "Osdp.PdM.C37_fragment",
    "Osdp.PdM.C37_tight",
    "Osdp.PdM.C37_items"
   ],
   "note": "The property fails; seven independent causes are exhibited (C37_long, block, unnamed, lstat, fragment, tight, items), each with a concrete history. C37_partial / C37_history_partial prove that the list is complete: for every configuration, history and byte stream (callbacks within the interface), the PD does not crash unless one of these causes is present."
  },
  {
   "property": "C38",
   "status": "partial",
   "theorems": [
    "Osdp.CpM.C38_partial",
    "Osdp.CpM.C38_history_partial",
    "Osdp.CpM.C38_long",
    "Osdp.CpM.C38_block",
    "Osdp.CpM.C38_keys",
    "Osdp.CpM.C38_card",
    "Osdp.CpM.C38_status",
    "Osdp.CpM.C38_grown",
    "Osdp.CpM.C38_fragment",
    "Osdp.CpM.C38_tight",
    "Osdp.CpM.C38_overwritten"
   ],
   "note": "The property fails; eight independent causes are listed (Hazard) and each is exhibited with a concrete history (C38_long, block, keys, card, status/grown, fragment, tight, overwritten). C38_partial / C38_history_partial prove that the list is complete: for every configuration, history and byte stream (callbacks and commands within the interface), the CP gets through a visit unless one of these causes is present."
  },
  {
   "property": "C39",
   "status": "partial",
   "theorems": [
    "Osdp.PdM.C39_api",
    "Osdp.PdM.C39_one_per_poll",
    "Osdp.PdM.C39_conserved",
    "Osdp.PdM.C39_poll_delivers",
    "Osdp.PdM.C39_poll_delivers_secure",
    "Osdp.PdM.C39_untranslated_event_dropped",
    "Osdp.PdM.C39_unbuildable_event_dropped",
    "Osdp.PdM.C39_repeated_poll_takes_next",
    "Osdp.PdM.C39_failed_send_loses_event"
   ],
   "note": "Order and conservation over all histories, one event per POLL, API return values, and the complete exchange in the clear and in a secure session. Missing: exactly-once delivery fails in the code: an accepted event is lost when it is not translatable, when its reply cannot be built, when the send fails, or when a POLL is repeated."
  },
  {
   "property": "C40",
   "status": "partial",
   "theorems": [
    "Osdp.CpM.C40_order",
    "Osdp.CpM.C40_each_partial",
    "Osdp.CpM.C40_first",
    "Osdp.CpM.C40_packets",
    "Osdp.CpM.C40_flush",
    "Osdp.CpM.C40_refused",
    "Osdp.CpM.C40_accepted",
    "Osdp.CpM.C40_dropped"
   ],
   "note": "Commands accepted = commands begun ++ still queued (order, at most once, none reordered or duplicated) for every history; a flush removes exactly the queued ones; the queue goes before POLL/file; refused unless online; each begun command is the one transmitted. Fails in one point: a KEYSET (or a command with nothing to send) is taken off the queue and never sent (C40_dropped)."
  },
  {
   "property": "C41",
   "status": "partial",
   "theorems": [
    "Osdp.CpM.C41_partial",
    "Osdp.CpM.C41_reported",
    "Osdp.CpM.C41_codes",
    "Osdp.CpM.C41_unsent",
    "Osdp.CpM.C41_mfg"
   ],
   "note": "Proved, with 1 for accepted and 0 for not accepted: while the reply to a command of the application is awaited, each visit reports nothing, or the exchange is over and the command is reported, with 1 exactly if the reply received accepts it (ACK or what was asked for); every such command other than MFG is reported once its exchange is over. The full statement fails: the codes are not the documented 0/-1 (C41_codes); a command the channel does not take is reported with the outcome of the previous command (C41_unsent); a refused MFG is not reported (C41_mfg)."
  },
  {
   "property": "C42",
   "status": "partial",
   "theorems": [
    "Osdp.CpM.C42_partial",
    "Osdp.CpM.C42_offline",
    "Osdp.CpM.C42_offline_example"
   ],
   "note": "Proved over all histories: coming online makes exactly one PD-status notification, with 1, and such notifications are made only on coming online or going offline. The rest of the statement fails: going offline is reported with 1 as well (C42_offline for all histories, C42_offline_example)."
  },
  {
   "property": "C43",
   "status": "proved",
   "theorems": [
    "Osdp.PdM.C43_change_granted",
    "Osdp.PdM.C43_reply_from_old_address",
    "Osdp.PdM.C43_exchange",
    "Osdp.PdM.C43_others_ignored",
    "Osdp.PdM.C43_unvalidated_parameters"
   ],
   "note": "A change of address or speed in any history traces back to an accepted COMSET with valid parameters; every packet leaves from the address before the refresh; complete exchange in the clear with the reply contents; packets for other addresses are ignored afterwards. The new parameters are those the application left in the command, which are not validated again (C43_unvalidated_parameters)."
  },
  {
   "property": "C44",
   "status": "partial",
   "theorems": [
    "Osdp.CpM.C44_partial",
    "Osdp.CpM.C44_com",
    "Osdp.CpM.C44_unasked"
   ],
   "note": "full statement violated: an unsolicited COM reply is acted on (witness C44_unasked); proved over all histories: address and baud rate change only on taking in a COM reply, to the values in it"
  },
  {
   "property": "C45",
   "status": "partial",
   "theorems": [
    "Osdp.CpM.C45_partial",
    "Osdp.CpM.C45_one",
    "Osdp.CpM.C45_add",
    "Osdp.CpM.C45_zero"
   ],
   "note": "Proved for every topology that follows the documented rule (shared channels have a non-zero id) and every history of API calls without run-time additions: between a command to one PD and a later command to another PD of the channel the first PD was visited and a packet had come in or 200 ms had passed; never two PDs of one channel waited for. Fails after osdp_cp_add_pd (C45_add: the locks are forgotten) and for channel id 0 (C45_zero)."
  },
  {
   "property": "C46",
   "status": "partial",
   "theorems": [
    "Osdp.CpM.C46_turn_partial",
    "Osdp.CpM.C46_fair_partial",
    "Osdp.CpM.C46_order_partial",
    "Osdp.CpM.C46_lap_partial",
    "Osdp.CpM.C46_index_partial",
    "Osdp.CpM.C46_starved",
    "Osdp.CpM.C46_misnamed"
   ],
   "note": "Proved for every topology following the channel id rule and every history of API calls without run-time additions: visits go round in order; a refresh visits every PD unless all share one channel and a reply is awaited; among any n(g+n+2) visits every PD is attended to when visits with g others in between are more than 200 ms apart; whatever the pace, between two commands to one PD every other PD of the channel is attended to; events name the position of their PD. Fails after osdp_cp_add_pd: C46_starved (a PD is never visited again), C46_misnamed (events of the third PD name PD 0)."
  },
  {
   "property": "C47",
   "status": "partial",
   "theorems": [
    "Osdp.C47.C47_status_mask",
    "Osdp.C47.C47_sc_status_mask",
    "Osdp.C47.C47_history",
    "Osdp.C47.C47_status_mask_pd",
    "Osdp.C47.C47_no_pd_crashes"
   ],
   "note": "bit by bit for every number of PDs and states, CP and PD side; over every history of a CP (additions included) a PD in the secure channel bitmap is online. With no PD at all the function dereferences NULL (C47_no_pd_crashes)."
  },
  {
   "property": "C48",
   "status": "proved",
   "theorems": [
    "Osdp.C48.C48_modify_flag_confined"
   ],
   "note": "for every context, PD index and 32-bit flag word"
  },
  {
   "property": "C49",
   "status": "partial",
   "theorems": [
    "Osdp.Link.C49_partial",
    "Osdp.Link.C49_span_partial",
    "Osdp.Link.C49_apart_partial",
    "Osdp.Link.C49_stale"
   ],
   "note": "Proved for every history of a link that loses nothing, in a secure session or in the clear with a PD that does not insist on a session (commands, replies, API calls of both applications, silent refreshes in any order), every file of 1 to 2^31-1 bytes and every choice of read sizes and read failures: when the sender's transfer is done, the receiver's application has stored exactly the file; while it is going on, what is stored is the beginning of the file up to the sender's offset. C49_span_partial and C49_apart_partial extend this to histories in which sessions end and begin during the transfer (the CP goes offline upon a reply, between exchanges, or after a lost or refused command other than ABORT, identifies the PD again, sets up a new session). C49_stale shows the violation when the refused command is an ABORT: the PD keeps the old transfer and puts the next file into it, which the sender takes for delivered."
  },
  {
   "property": "C50",
   "status": "partial",
   "theorems": [
    "Osdp.File.C50_repeated",
    "Osdp.File.C50_content_partial",
    "Osdp.File.C50_last",
    "Osdp.File.C50_single_partial",
    "Osdp.Link.C50_aborts",
    "Osdp.Link.C50_truncated",
    "Osdp.Link.C50_restarted"
   ],
   "note": "The property fails, in general and not only in examples: C50_repeated shows that for every file and every fragment but the last, a fragment whose acknowledgement is lost and which is therefore sent again is counted twice, so the transfer ends in an assertion, is reported complete although bytes are missing, or goes on with a wrong offset; C50_last shows that losing the acknowledgement of the last fragment makes the PD open the file again and store zeros plus the last fragment. C50_aborts, C50_truncated, C50_restarted run CP and PD against each other. What holds: the repeated write itself leaves the stored bytes unchanged (C50_content_partial), and a file of one fragment survives (C50_single_partial)."
  },
  {
   "property": "C51",
   "status": "partial",
   "theorems": [
    "Osdp.PdM.C51_open",
    "Osdp.PdM.C51_partial",
    "Osdp.PdM.C51_status",
    "Osdp.PdM.C51_outside"
   ],
   "note": "Offsets are not checked by the code (C51_outside: a write at offset -1, and beyond the announced size). Proved for every history: writes only to a file opened and not closed since, with at least one byte (C51_open); inside the announced size whenever the fragments heard lie inside it (C51_partial); the reported count never exceeds the size (C51_status)."
  },
  {
   "property": "C52",
   "status": "partial",
   "theorems": [
    "Osdp.CpM.C52_reads",
    "Osdp.CpM.C52_partial",
    "Osdp.CpM.C52_never_fits",
    "Osdp.CpM.C52_toolarge"
   ],
   "note": "Reads: every read asks for >= 33 bytes at the offset reported by osdp_get_file_tx_status, over all histories (C52_reads). Packet: sent and fits, outside the secure channel for every announced size, inside it for 256 bytes and for the smaller sizes of Roomy, 9 of 16 (C52_partial). For all other sizes the property fails: a full fragment is never sent (C52_never_fits, C52_toolarge)."
  },
  {
   "property": "C53",
   "status": "partial",
   "theorems": [
    "Osdp.CpM.C53_partial",
    "Osdp.CpM.C53_ignored"
   ],
   "note": "Done only on a reported status 1 or 2 for the last fragment, progress only on a reported status, over all histories (C53_partial). False mid-transfer and for the status call: C53_ignored."
  },
  {
   "property": "C54",
   "status": "partial",
   "theorems": [
    "Osdp.CpM.C54_request",
    "Osdp.CpM.C54_cp_partial",
    "Osdp.CpM.C54_aborts",
    "Osdp.CpM.C54_sent",
    "Osdp.PdM.C54_pd",
    "Osdp.CpM.C54_stuck"
   ],
   "note": "Proved: when a cancel request is accepted and that it changes nothing else (C54_request); that a CP with a cancelled transfer begins no further FILETRANSFER and, unless the PD ends the transfer first, closes the file and begins ABORT (C54_cp_partial, C54_aborts, C54_sent); that a PD hearing ABORT closes its file and forgets the transfer (C54_pd). Missing: if the PD asks to keep the transfer alive after the cancel request, the CP sends ABORT forever (C54_stuck)."
  },
  {
   "property": "C55",
   "status": "proved",
   "theorems": [
    "Osdp.CpM.C55_silent",
    "Osdp.CpM.C55_first",
    "Osdp.CpM.C55_restarts"
   ],
   "note": "Once a visit takes the PD offline, no later history of visits and API calls with clock at most 300 s later puts a byte on the wire and the PD stays offline; whatever is sent first afterwards is the plain ID command with sequence number 0; and the first visit later than 300 s and the next two send it (given room for one packet, see C58)."
  },
  {
   "property": "C56",
   "status": "proved",
   "theorems": [
    "Osdp.CpM.C56",
    "Osdp.CpM.C56_secure"
   ],
   "note": "Over all histories of the CP's view of a PD: whenever the PD is online, or a secure channel handshake is under way or complete, a PDID reply and later a PDCAP reply were received with no restart in between or since."
  },
  {
   "property": "C57",
   "status": "partial",
   "theorems": [
    "Osdp.CpM.C57_partial",
    "Osdp.CpM.C57_delivered",
    "Osdp.CpM.C57_carried",
    "Osdp.CpM.C57_stale"
   ],
   "note": "Proved: a PD that is online before a visit gets at most one event delivered, the one carried by the reply received in that visit, and every well-formed report received then is delivered; in all histories whatever is delivered was carried by some reply received. The full statement fails (C57_stale): a report in reply to ID stays pending while offline and is delivered minutes later when the PD comes online."
  },
  {
   "property": "C58",
   "status": "partial",
   "theorems": [
    "Osdp.CpM.C58_cp_mute_forever",
    "Osdp.CpM.C58_cp_partial",
    "Osdp.PdM.C58_pd_mute",
    "Osdp.PdM.C58_pd_partial"
   ],
   "note": "full statement violated: announced sizes 1..68 silence the device for ever (C58_cp_mute_forever, C58_pd_mute); proved: with any other announced size the ID command and the ACK to a POLL do go out"
  },
  {
   "property": "C59",
   "status": "partial",
   "theorems": [
    "Osdp.PdM.C59_addresses",
    "Osdp.PdM.C59_addresses_partial",
    "Osdp.PdM.C59_unanswered_broadcast_spoils_next_reply"
   ],
   "note": "Any history: every packet sent answers an intact command for the PD, from the address it was sent to, provided the previous refresh sent a reply or the PD is fresh from setup. An unanswered broadcast makes the next reply come from 0x7F: proved witness."
  },
  {
   "property": "C60",
   "status": "proved",
   "theorems": [
    "Osdp.C60.C60_pd_setup",
    "Osdp.C60.C60_cp_add_pd",
    "Osdp.C60.C60_cp_enforced_has_key"
   ],
   "note": "osdp_pd_setup, osdp_cp_setup and osdp_cp_add_pd; for every PD information structure"
  },
  {
   "property": "C61",
   "status": "proved",
   "theorems": [
    "Osdp.C61.C61_bad_index_harmless",
    "Osdp.C61.C61_good_index_accepted",
    "Osdp.C61.C61_capability"
   ],
   "note": "for every context and index; capabilities are answered for exactly the codes 1..16"
  },
  {
   "property": "C62",
   "status": "partial",
   "theorems": [
    "Osdp.C62.C62_bad_accepted",
    "Osdp.C62.C62_bad_kills",
    "Osdp.C62.C62_long_text_accepted",
    "Osdp.C62.C62_long_text_overreads",
    "Osdp.C62.C62_bad_key_accepted",
    "Osdp.C62.C62_refusals_partial"
   ],
   "note": "the code violates the full statement: bad command ids, over-long TEXT and wrong KEYSET lengths are accepted (witnesses); proved: exactly which commands are refused and that a refusal changes nothing"
  },
  {
   "property": "C63",
   "status": "proved",
   "theorems": [
    "Osdp.Aes.C63_aes_is_fips197",
    "Osdp.Aes.C63_decrypt_is_inverse"
   ],
   "note": "Osdp.Spec.Fips197.encrypt is written from the standard, independently of the code's tables and xtime; decryption proved to be its two-sided inverse."
  },
  {
   "property": "C64",
   "status": "partial",
   "theorems": [
    "Osdp.CpM.C64_cp",
    "Osdp.PdM.C64_pd_partial",
    "Osdp.PdM.C64_clear_nak"
   ],
   "note": "CP side in full. PD side: every reply sent by a refresh after which the session is active and every answer to a KEYSET (with which the session ends), except RMAC_I (opens the session) and the NAK substituted for a reply that could not be built, which is authenticated but not enciphered: that is a violation (C64_clear_nak)."
  },
  {
   "property": "C65",
   "status": "proved",
   "theorems": [
    "Osdp.PdM.C65_recovers_after_pause",
    "Osdp.PdM.C65_pause_needed"
   ],
   "note": "Any history since setup, then 768 quiet visits at least 200 ms later: an intact command (seq 0, or any accepted seq without session) is answered exactly once. Conditions of C36 kept: no file transfer, reply buffer of 164 bytes, no crash."
  },
  {
   "property": "C66",
   "status": "proved",
   "theorems": [
    "Osdp.Link.C66_comes_up",
    "Osdp.Link.C66_comes_back",
    "Osdp.Link.C66_clear"
   ],
   "note": "Full path from the initial/offline state of the CP to a synchronous secure session (or clear-text link), composed from the two clear exchanges and the handshake of C20."
  },
  {
   "property": "C67",
   "status": "partial",
   "theorems": [
    "Osdp.CpM.C67_mute_forever",
    "Osdp.CpM.C67_keeps_sending_partial",
    "Osdp.CpM.C67_with_mark_partial"
   ],
   "note": "A CP that has lost its voice (peer announced 1..68 bytes; or skip-mark build that heard a mark byte) never sends again (C67_mute_forever): the property fails. Otherwise, for all histories and futures, something is sent within (6+queue)*(300000+d) ms (C67_keeps_sending_partial); for the default build only the small announced buffer silences (C67_with_mark_partial)."
  },
  {
   "property": "C68",
   "status": "proved",
   "theorems": [
    "Osdp.PdM.C68_clear",
    "Osdp.PdM.C68_secure",
    "Osdp.PdM.C68_complete"
   ],
   "note": "Record loop of OUT, LED and BUZ: order, values and stopping point, in the clear and in a session."
  },
  {
   "property": "C69",
   "status": "partial",
   "theorems": [
    "Osdp.Link.C69_repeats",
    "Osdp.Link.C69_lost_command",
    "Osdp.Link.C69_lost_answer_clear",
    "Osdp.Link.C69_lost_answer_secure_partial"
   ],
   "note": "The code violates the property in every case, proved in general: the repetition carries the next sequence number, so a lost command is refused and costs the PD its place online, and after a lost answer the command is carried out twice in the clear. In a session it is carried out once (up to a 4-byte coincidence of two MACs) but the session ends."
  },
  {
   "property": "C70",
   "status": "proved",
   "theorems": [
    "Osdp.Link.C70_commissions",
    "Osdp.Link.C70_falls_back",
    "Osdp.Link.C70_installs"
   ],
   "note": "From two ends that never met to the session under the CP's key, packets delivered and key accepted."
  },
  {
   "property": "C71",
   "status": "partial",
   "theorems": [
    "Osdp.CpM.C71_partial",
    "Osdp.CpM.C71_reused"
   ],
   "note": "Fails when the CP falls back to the default key: the number of the failed challenge is used again (C71_reused). Proved: it was drawn since the CP began to challenge."
  },
  {
   "property": "C72",
   "status": "partial",
   "theorems": [
    "Osdp.CpM.C72_partial",
    "Osdp.CpM.C72_learns_from_answers",
    "Osdp.CpM.C72_early",
    "Osdp.CpM.C72_anyone"
   ],
   "note": "Proved over every history except that the packet may have arrived before the command was sent and may bear the broadcast address; both exceptions are real (C72_early, C72_anyone)."
  },
  {
   "property": "C73",
   "status": "partial",
   "theorems": [
    "Osdp.PdM.C73_partial",
    "Osdp.PdM.C73_stale",
    "Osdp.PdM.C73_swallowed"
   ],
   "note": "Proved for intact overheard commands and for overheard replies without a second start byte, over all pairs of histories, provided every packet for this PD that announces a security block has room for one and no refresh finds more bytes than the FIFO holds. Violated otherwise: C73_stale (short packet with security bit is read together with stale bytes), C73_swallowed (start byte in an overheard reply)."
  },
  {
   "property": "C74",
   "status": "partial",
   "theorems": [
    "Osdp.PdM.C74_replay_partial",
    "Osdp.PdM.C74_clear",
    "Osdp.PdM.C74_silent"
   ],
   "note": "In a session, a PD acts twice on one packet only if the chain of MACs stands at the same value, or the MACs collide in the four transmitted bytes. The code violates the property in the clear and in a session with a PD that cannot reply (witnesses proved)."
  },
  {
   "property": "C75",
   "status": "partial",
   "theorems": [
    "Osdp.Link.C75_partial"
   ],
   "note": "Round trip of a status request through both ends, in the clear or in a session, for PDs with at most 31 inputs and outputs (with more the code shifts out of range, C37_items)."
  },
  {
   "property": "C76",
   "status": "partial",
   "theorems": [
    "Osdp.CpM.C76_partial",
    "Osdp.Link.C76_overheard"
   ],
   "note": "Over every history: no KEYSET outside a session, and in one it is sealed under keys derived from the CP's own key or, while a PD is commissioned, the default key. The latter violates the property: for every cipher a listener who knows the public default key reads the new key (C76_overheard)."
  },
  {
   "property": "C77",
   "status": "partial",
   "theorems": [
    "Osdp.CpM.C77_partial",
    "Osdp.CpM.C77_tricked",
    "Osdp.PdM.C77_pd"
   ],
   "note": "Proved for a CP whose PD object is not in install mode (ENFORCE_SECURE set and not cleared, INSTALL_MODE never set): sessions are only of the key the CP holds. With INSTALL_MODE the code violates it: C77_tricked (CP gives its own key to a device that knows only the default key), C77_pd. The PD without install mode is C25."
  },
  {
   "property": "C78",
   "status": "partial",
   "theorems": [
    "Osdp.PdM.C78_partial",
    "Osdp.PdM.C78_twice",
    "Osdp.PdM.C78_reopened"
   ],
   "note": "Proved: after a key was set no new session keys are derived from the default key. The code violates the rest: any number of SCBK-D sessions before KEYSET (C78_twice), and the old one can be opened again afterwards by repeating SCRYPT, and used to replace the key (C78_reopened)."
  },
  {
   "property": "C79",
   "status": "partial",
   "theorems": [
    "Osdp.CpM.C79_kept_partial",
    "Osdp.CpM.C79_setup",
    "Osdp.CpM.C79_lost",
    "Osdp.CpM.C79_dangling"
   ],
   "note": "Refuted: after osdp_cp_add_pd the queues of earlier PDs point into freed memory (C79_lost for all histories, C79_dangling), locks and numbers are wrong (C45_add, C46_starved, C46_misnamed). Proved: the values of the PD objects are kept; without an addition the queues are in place."
  },
  {
   "property": "C80",
   "status": "partial",
   "theorems": [
    "Osdp.PdM.C80_partial",
    "Osdp.PdM.C80_secure_partial",
    "Osdp.PdM.C80_no_mfgrep",
    "Osdp.PdM.C80_secure_no_mfgrep",
    "Osdp.PdM.C34_rejected_acknowledged"
   ],
   "note": "Values up to 0, in the clear and in a secure session (negative ones for TEXT and MFG); positive values are answered with NAK instead of MFGREP, proved in general in both cases; OUT, LED and BUZ are acknowledged also when refused (C34)."
  },
  {
   "property": "C81",
   "status": "partial",
   "theorems": [
    "Osdp.CpM.C81_partial",
    "Osdp.CpM.C81_without",
    "Osdp.CpM.C81_zero",
    "Osdp.CpM.Sample81.C81_witness"
   ],
   "note": "Ignored as documented for every unknown reply code but 0; code 0 equals REPLY_INVALID and takes the PD offline even with the flag (general theorem and witness)."
  },
  {
   "property": "C82",
   "status": "partial",
   "theorems": [
    "Osdp.Life.C82_partial",
    "Osdp.Life.C82_pd_partial",
    "Osdp.Life.C82_refused",
    "Osdp.Life.C82_nomem",
    "Osdp.Life.C82_unwritable",
    "Osdp.Life.C82_leak",
    "Osdp.Life.C82_open"
   ],
   "note": "Proved for whole lives of CP and PD contexts with any allocation failing, provided captures can be begun and are not refused and transfers have closed their files (and, for a PD, that the second allocation is not the one that fails). The full statement fails in each of these cases: abort on a refused capturing PD, NULL dereference, abort on an unwritable capture file, captures leaked by a refused add, files left open; all shown."
  },
  {
   "property": "C83",
   "status": "proved",
   "theorems": [
    "Osdp.AesMem.C83_encrypt",
    "Osdp.AesMem.C83_decrypt",
    "Osdp.AesMem.C83_block",
    "Osdp.AesMem.C83_refines",
    "Osdp.AesMem.C83_ragged"
   ],
   "note": "osdp_encrypt/osdp_decrypt followed store by store: CBC/ECB with FIPS 197, in place, nothing outside the whole blocks touched, any stack content. Lengths that are not whole blocks are outside the property and shown to overrun (C83_ragged)."
  },
  {
   "property": "C84",
   "status": "partial",
   "theorems": [
    "Osdp.ScMem.C84_seal",
    "Osdp.ScMem.C84_open_partial",
    "Osdp.ScMem.C84_roundtrip",
    "Osdp.ScMem.C84_mac",
    "Osdp.ScMem.C84_empty_partial",
    "Osdp.ScMem.C84_before"
   ],
   "note": "osdp_encrypt_data, osdp_decrypt_data, osdp_compute_mac followed store by store and shown to meet the CBC and MAC specifications and to leave the rest of the buffer alone. Fails for an empty block without the ALLOW_EMPTY flag: the byte before the data may be overwritten (C84_before)."
  },
  {
   "property": "C85",
   "status": "partial",
   "theorems": [
    "Osdp.Random.C85_defined_partial",
    "Osdp.Random.C85_even",
    "Osdp.Random.C85_undefined"
   ],
   "note": "Exactly the 64 largest values of rand() make the conversion undefined (C85_undefined); otherwise every byte has its even share (C85_even)."
  },
  {
   "property": "C86",
   "status": "partial",
   "theorems": [
    "Osdp.PhyMem.C86_plain",
    "Osdp.PhyMem.C86_sealed",
    "Osdp.PhyMem.C86_refused_partial",
    "Osdp.PhyMem.C86_init",
    "Osdp.PhyMem.C86_beyond",
    "Osdp.PhyMem.C86_overflow"
   ],
   "note": "the outcome for packets that fit and for packets in the clear is proved in full; a refused packet of a session is written behind the limit (C86_beyond) and a large one behind the buffer (C86_overflow), C86_refused_partial says what stays"
  },
  {
   "property": "C87",
   "status": "partial",
   "theorems": [
    "Osdp.Trace.C87_sent",
    "Osdp.Trace.C87_sent_capture",
    "Osdp.Trace.C87_received_partial",
    "Osdp.Trace.C87_line_out",
    "Osdp.Trace.C87_line_in",
    "Osdp.Trace.C87_crash",
    "Osdp.Trace.C87_assert"
   ],
   "note": "Same packet, MAC, outcome and data with tracing as without, and self-consistent captures, for both directions; refuted for a received packet whose security block is longer than the packet (memmove with a negative length), so that theorem excludes packets without room for a command id."
  },
  {
   "property": "C88",
   "status": "proved",
   "theorems": [
    "Osdp.KeyMem.C88_keys",
    "Osdp.KeyMem.C88_cp_cryptogram",
    "Osdp.KeyMem.C88_pd_cryptogram",
    "Osdp.KeyMem.C88_rmac",
    "Osdp.KeyMem.C88_verify",
    "Osdp.KeyMem.C88_scbk",
    "Osdp.KeyMem.C88_setup",
    "Osdp.KeyMem.C88_model"
   ],
   "note": "The handshake's functions on the bytes of the secure channel record, all inputs. Layout without padding (all members are byte arrays)."
  },
  {
   "property": "C89",
   "status": "partial",
   "theorems": [
    "Osdp.CpM.C89_partial",
    "Osdp.CpM.C89_count",
    "Osdp.CpM.C89_never",
    "Osdp.CpM.C89_forever"
   ],
   "note": "The code violates the property: the error counter never exceeds 1, so the limit of ten is never reached (C89_count, C89_never, witness C89_forever). Proved part: giving up when the file cannot be read."
  },
  {
   "property": "C90",
   "status": "partial",
   "theorems": [
    "Osdp.CpM.C90_delay",
    "Osdp.CpM.C90_exclusive",
    "Osdp.CpM.C90_poll",
    "Osdp.CpM.C90_after",
    "Osdp.CpM.C90_polled"
   ],
   "note": "Delay, silence, polling and the command afterwards are proved for all histories. Violated: the status sent in answer to the POLL is not accepted and the connection is dropped (C90_polled)."
  },
  {
   "property": "C91",
   "status": "partial",
   "theorems": [
    "Osdp.PdM.C91_pd",
    "Osdp.CpM.C91_cp_partial",
    "Osdp.CpM.C91_misuse"
   ],
   "note": "PD side proved for all histories in which closing works; CP side proved for histories in which the file operations succeed and the last status ends the transfer. Otherwise the CP violates it (C91_misuse)."
  },
  {
   "property": "C92",
   "status": "partial",
   "theorems": [
    "Osdp.OpenMem.C92_agrees",
    "Osdp.OpenMem.C92_within_partial",
    "Osdp.OpenMem.C92_opens",
    "Osdp.OpenMem.C92_refuses",
    "Osdp.OpenMem.C92_roundtrip",
    "Osdp.OpenMem.C92_overlong"
   ],
   "note": "Missing: packets whose security block claims more bytes than they have fault (C92_overlong)."
  },
  {
   "property": "C93",
   "status": "partial",
   "theorems": [
    "Osdp.CInt.C93_narrow",
    "Osdp.CInt.C93_wide_partial",
    "Osdp.CInt.C93_undefined",
    "Osdp.CInt.C93_status_partial",
    "Osdp.CInt.C93_identity_partial",
    "Osdp.CInt.C93_model"
   ],
   "note": "Numbers of 32 bits from 2^31 on, and a 32nd status entry that is not 0, are put together by an undefined shift (C93_undefined, C93_status_partial); all others, and all of 16 and 24 bits, are put together as defined and right."
  },
  {
   "property": "C94",
   "status": "partial",
   "theorems": [
    "Osdp.Backend.C94_calls",
    "Osdp.Backend.C94_handshake",
    "Osdp.Backend.C94_session",
    "Osdp.Backend.C94_interop",
    "Osdp.Backend.C94_negative",
    "Osdp.Backend.C94_stateless",
    "Osdp.Backend.C94_cp_partial",
    "Osdp.Backend.C94_objects"
   ],
   "note": "Results are the same with all three libraries (C94_calls, C94_handshake, C94_session, C94_interop). With mbedtls the objects are not always ready: a PD never seeds its generator, and one PD's session frees the cipher object of the others on a CP (C94_objects); C94_cp_partial has what holds."
  },
  {
   "property": "C95",
   "status": "partial",
   "theorems": [
    "Osdp.CpM.C95_begins",
    "Osdp.CpM.C95_asks",
    "Osdp.CpM.C95_partial",
    "Osdp.CpM.C95_never",
    "Osdp.CpM.C95_dropped",
    "Osdp.CpM.C95_loop"
   ],
   "note": "The status 3 is understood and the CP asks again with empty fragments (C95_begins, C95_asks, C95_partial). What the property says about the answers fails: none of them is accepted, each costs the connection, and the transfer is never reported as done (C95_dropped, C95_never, C95_loop)."
  },
  {
   "property": "C96",
   "status": "partial",
   "theorems": [
    "Osdp.PdM.C96_partial",
    "Osdp.PdM.C96_spoiled",
    "Osdp.PdM.C96_asked",
    "Osdp.PdM.C96_zero_key",
    "Osdp.PdM.C96_locked_out"
   ],
   "note": "Holds for a PD to which no packet has named the default key so far (C96_partial). Fails otherwise: the choice of the default key is not taken back by a CHLNG that names the PD's own key (C96_spoiled for all histories, C96_asked, C96_locked_out), and a PD without a key uses a key of zeros (C96_zero_key)."
  },
  {
   "property": "C97",
   "status": "partial",
   "theorems": [
    "Osdp.CpM.C97_partial",
    "Osdp.CpM.C97_same",
    "Osdp.CpM.C97_ignored",
    "Osdp.CpM.C97_own",
    "Osdp.CpM.C97_64"
   ],
   "note": "Holds if the size named is 0, at least 256, or at least the one among the PD's capabilities (C97_partial), so for every PD of this library (C97_own). Fails otherwise: the size is read and not used (C97_same, C97_ignored for all histories, C97_64)."
  },
  {
   "property": "C98",
   "status": "partial",
   "theorems": [
    "Osdp.PdM.C98_partial",
    "Osdp.PdM.C98_refused",
    "Osdp.PdM.C98_mixed",
    "Osdp.PdM.C98_unasked",
    "Osdp.PdM.C98_other"
   ],
   "note": "Proved over all histories for a PD with a command callback: asked and not refused before every open (C98_partial); a refusal prevents opening and writing (C98_refused). Fails otherwise: without a callback the file is opened unasked (C98_unasked), a refusal is not answered (C98_refused), and fragments of another file are written to the open one (C98_mixed, C98_other)."
  },
  {
   "property": "C99",
   "status": "partial",
   "theorems": [
    "Osdp.PdM.C99_partial",
    "Osdp.PdM.C99_taken",
    "Osdp.PdM.C99_refused",
    "Osdp.CpM.C99_cp",
    "Osdp.CpM.C99_mode"
   ],
   "note": "With the flag a PD carries out an SCS_17 command without data like the SCS_15 command (C99_taken, any command), and answers a POLL with a sealed ACK (C99_partial); without it the session ends (C99_refused). The part about the CP is refuted: a CP heeds the flag (C99_cp, C99_mode)."
  }
 ]
}