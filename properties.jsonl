{"id": "C01", "title": "Receive buffering is a lossless bounded FIFO", "statement": "Bytes accepted from the serial channel are handed to the packet parser in exactly the order received, without duplication or loss, as long as at most 511 bytes are pending; when full, further bytes are refused and nothing already stored is damaged.", "quantifier": "every sequence of pushes and pops of any length, from every reachable head/tail position", "why_tests_cant": "wrap-around positions and interleavings are unbounded; tests exercise a handful of fill levels", "anchors": ["src/osdp_common.c: osdp_rb_push, osdp_rb_push_buf, osdp_rb_pop, osdp_rb_pop_buf"]}
{"id": "C02", "title": "The packet CRC is CRC-CCITT (0x1021, seed 0x1D0F) and detects every burst of up to 16 bits", "statement": "The 16-bit check value on a packet equals the polynomial CRC the OSDP specification prescribes, and any corruption confined to 16 consecutive bits (in particular any single corrupted byte) changes the check value.", "quantifier": "every message of every length, every corruption position and pattern spanning at most 16 consecutive bits", "why_tests_cant": "2^(8n) messages times all burst patterns; tests check fixed vectors", "anchors": ["src/osdp_common.c: crc16_itu_t, osdp_compute_crc16"]}
{"id": "C03", "title": "The checksum makes the packet sum to zero and detects any single-byte change", "statement": "A packet in checksum mode sums to 0 modulo 256 including its checksum byte; changing any one byte invalidates it.", "quantifier": "every message of every length, every byte position, every replacement value", "why_tests_cant": "unbounded message space", "anchors": ["src/osdp_phy.c: osdp_compute_checksum, phy_check_packet"]}
{"id": "C04", "title": "Plain packet round trip", "statement": "Whatever command/reply body one side frames and sends outside a secure channel, the other side's receiver accepts and extracts exactly the same body, with the same sequence number and address.", "quantifier": "every body that fits, every address, every sequence number, with and without the mark byte", "why_tests_cant": "space of bodies x header settings; tests cover a few packets", "anchors": ["src/osdp_phy.c: osdp_phy_packet_init, osdp_phy_packet_finalize, phy_check_header, phy_check_packet, osdp_phy_decode_packet"]}
{"id": "C05", "title": "No packet exceeds what the peer said it can receive", "statement": "Every packet put on the wire is at most 256 bytes and at most the receive-buffer size announced by the peer, when one was announced.", "quantifier": "every command/reply, every announced size, secure channel on or off", "why_tests_cant": "size limit x payload x padding combinations", "anchors": ["src/osdp_common.h: get_tx_buf_size", "src/osdp_phy.c: osdp_phy_packet_init, osdp_phy_packet_finalize"]}
{"id": "C06", "title": "Receiving never writes outside the packet buffer", "statement": "No byte stream arriving on the channel makes the receiver store a byte beyond the 256-byte packet buffer.", "quantifier": "every byte stream, every split into reads, every prior state", "why_tests_cant": "adversarial input space is infinite; the failing length is a single value of the length field", "anchors": ["src/osdp_phy.c: phy_check_header, osdp_phy_check_packet", "src/osdp_common.h: struct osdp_pd packet_buf"]}
{"id": "C07", "title": "Packet recognition does not depend on how bytes are chunked", "statement": "The body, address and sequence number the receiver extracts from a byte stream are the same however the stream is divided between successive refresh calls.", "quantifier": "every packet, every division of its bytes into successive reads", "why_tests_cant": "exponentially many divisions", "anchors": ["src/osdp_phy.c: osdp_channel_receive, phy_check_header, osdp_phy_check_packet"]}
{"id": "C08", "title": "A PD never acts on bytes that belong to another device's packet", "statement": "If the line carries a well formed packet addressed to, or sent by, another device on the bus, the PD does not execute any command taken from inside that packet and sends nothing.", "quantifier": "every foreign packet content", "why_tests_cant": "requires all possible foreign payloads, including ones that embed a complete command", "anchors": ["src/osdp_phy.c: phy_check_header, phy_check_packet", "src/osdp_pd.c: pd_receive_and_process_command"]}
{"id": "C09", "title": "Packets with a bad check value have no effect", "statement": "A packet whose CRC/checksum does not verify is never executed, produces no reply and never reaches the application callbacks.", "quantifier": "every packet with a wrong check value, every prior state", "why_tests_cant": "all corruptions", "anchors": ["src/osdp_phy.c: phy_check_packet", "src/osdp_pd.c: osdp_pd_update", "src/osdp_cp.c: cp_process_reply"]}
{"id": "C10", "title": "CP sequence numbers are 0 then cycle 1,2,3", "statement": "After (re)start of communication the CP's first command carries sequence number 0; each further new command carries the successor in the cycle 1,2,3; 0 is never used again until a restart.", "quantifier": "every history of commands, replies, timeouts, busy replies and restarts", "why_tests_cant": "arbitrary histories", "anchors": ["src/osdp_phy.c: osdp_phy_get_seq_number, osdp_phy_packet_init, osdp_phy_state_reset"]}
{"id": "C11", "title": "PD sequence acceptance", "statement": "A PD acts on a command only if its sequence number is 0 (restart), equal to the last accepted one (repeat) or its successor; otherwise it answers NAK(sequence error) and does not act, and the rejected packet does not change what it will accept next.", "quantifier": "every history of received packets", "why_tests_cant": "state is history dependent", "anchors": ["src/osdp_phy.c: phy_check_packet, osdp_phy_get_seq_number"]}
{"id": "C12", "title": "BUSY makes the CP repeat the same command with the same sequence number", "statement": "When the PD answers BUSY, the CP waits 800 ms and sends the same command with the same sequence number; no error is reported and no other command is sent to that PD in between.", "quantifier": "every command, every sequence number, any number of consecutive BUSY replies", "why_tests_cant": "timing and repetition histories", "anchors": ["src/osdp_phy.c: phy_check_packet", "src/osdp_cp.c: cp_phy_state_update"]}
{"id": "C13", "title": "Bounded retransmission", "statement": "An unanswered command is retransmitted at most 8 times, 800 ms apart, before the CP declares failure; every command gets the full retry budget.", "quantifier": "every command, every timing of refresh calls, every history", "why_tests_cant": "unbounded timing histories; counter persists across commands", "anchors": ["src/osdp_cp.c: cp_phy_state_update", "src/osdp_phy.c: osdp_phy_state_reset"]}
{"id": "C14", "title": "Bundled AES-128 decrypt inverts encrypt", "statement": "For the bundled cipher, decrypting an encrypted block (and, in CBC mode, an encrypted buffer under the same IV) yields the original.", "quantifier": "every 128-bit key, every block, every buffer of whole blocks, every IV", "why_tests_cant": "2^256 key/block pairs", "anchors": ["src/crypto/tinyaes_src.c: KeyExpansion, Cipher, InvCipher, AES_CBC_encrypt_buffer, AES_CBC_decrypt_buffer", "src/crypto/tinyaes.c: osdp_encrypt, osdp_decrypt"]}
{"id": "C15", "title": "Encrypted data block round trip", "statement": "Payload encrypted for the secure channel decrypts to exactly the same bytes, including payloads that end in 0x00 or 0x80 bytes.", "quantifier": "every payload (including empty and any tail), every session key and MAC state", "why_tests_cant": "padding ambiguity appears only for particular tails", "anchors": ["src/osdp_sc.c: osdp_encrypt_data, osdp_decrypt_data"]}
{"id": "C16", "title": "Secure session stays in step", "statement": "In an established secure channel every command sent by the CP verifies and decrypts to the same body at the PD, and every reply vice versa, for any number of exchanges.", "quantifier": "every sequence of command/reply bodies of any length, every session key", "why_tests_cant": "MAC chaining makes the n-th message depend on all previous ones", "anchors": ["src/osdp_sc.c: osdp_compute_mac, osdp_encrypt_data, osdp_decrypt_data", "src/osdp_phy.c: osdp_phy_packet_finalize, osdp_phy_decode_packet"]}
{"id": "C17", "title": "While its secure channel is active a PD acts only on authenticated commands", "statement": "With an active secure channel, the PD executes a command only if the packet carried a MAC that verifies under the session's keys.", "quantifier": "every received packet, every session state", "why_tests_cant": "adversary controls every byte", "anchors": ["src/osdp_phy.c: osdp_phy_decode_packet", "src/osdp_pd.c: pd_receive_and_process_command"]}
{"id": "C18", "title": "While its secure channel is active the CP accepts only authenticated replies", "statement": "With an active secure channel, the CP delivers a card read/keypad/status event only from a reply whose MAC verified; the only unauthenticated replies tolerated are NAK, BUSY and the ACK of a KEYSET.", "quantifier": "every received packet, every session state", "why_tests_cant": "adversary controls every byte", "anchors": ["src/osdp_phy.c: osdp_phy_decode_packet", "src/osdp_cp.c: cp_process_reply, cp_decode_response"]}
{"id": "C19", "title": "A bad MAC ends the session", "statement": "A secured packet whose MAC or padding does not verify is not executed, the PD answers NAK(6) and the session is over on that side.", "quantifier": "every packet, every session state", "why_tests_cant": "all forgeries", "anchors": ["src/osdp_phy.c: osdp_phy_decode_packet"]}
{"id": "C20", "title": "Handshake completeness", "statement": "If CP and PD hold the same base key and the four handshake packets are delivered, both sides end with an active secure channel with identical session keys and identical MAC state.", "quantifier": "every base key, every pair of random numbers, every PD address/flags setting", "why_tests_cant": "2^256 key/nonce combinations", "anchors": ["src/osdp_sc.c: osdp_compute_session_keys, osdp_compute_cp_cryptogram, osdp_verify_cp_cryptogram, osdp_compute_pd_cryptogram, osdp_verify_pd_cryptogram, osdp_compute_rmac_i", "src/osdp_cp.c: cp_build_command, cp_decode_response", "src/osdp_pd.c: pd_decode_command, pd_build_reply"]}
{"id": "C21", "title": "Handshake soundness at the CP", "statement": "The CP considers the secure channel active only after receiving a PD cryptogram that equals the one computed from the shared key and the CP's own fresh random number.", "quantifier": "every byte stream from the PD side, every history", "why_tests_cant": "adversary behaviour", "anchors": ["src/osdp_cp.c: cp_decode_response, get_next_ok_state", "src/osdp_sc.c: osdp_verify_pd_cryptogram"]}
{"id": "C22", "title": "Handshake soundness at the PD", "statement": "The PD considers the secure channel active only after its peer proved knowledge of the base key by answering a challenge issued for this session; a peer without the key, or replaying an old session, is refused.", "quantifier": "every byte stream from the CP side, every history", "why_tests_cant": "adversary behaviour, history dependent session state", "anchors": ["src/osdp_pd.c: pd_decode_command, pd_build_reply", "src/osdp_sc.c: osdp_verify_cp_cryptogram"]}
{"id": "C23", "title": "ENFORCE_SECURE PD refuses plaintext operation", "statement": "A PD set up with ENFORCE_SECURE never calls the application's command callback and never releases a queued event until a secure channel is active; the refused command is answered with NAK(6).", "quantifier": "every byte stream, every history", "why_tests_cant": "all commands in all states", "anchors": ["src/osdp_pd.c: pd_decode_command"]}
{"id": "C24", "title": "ENFORCE_SECURE CP is never online in the clear", "statement": "With ENFORCE_SECURE set for a PD, the CP never regards that PD as online (never sends application commands, never delivers its events) unless a secure channel with a non-default key is active.", "quantifier": "every history of refresh calls, replies and timeouts", "why_tests_cant": "all interleavings of the connection state machine", "anchors": ["src/osdp_cp.c: state_update, get_next_ok_state, get_next_err_state, cp_state_change"]}
{"id": "C25", "title": "The default key works only in install mode", "statement": "A PD set up with its own key and without INSTALL_MODE never establishes a secure channel keyed by the well-known default key.", "quantifier": "every byte stream, every history", "why_tests_cant": "adversary behaviour", "anchors": ["src/osdp_phy.c: osdp_phy_decode_packet", "src/osdp_sc.c: osdp_compute_session_keys", "src/osdp_pd.c: osdp_pd_setup"]}
{"id": "C26", "title": "KEYSET ends install mode for good and installs exactly the key sent", "statement": "When a PD acknowledges a KEYSET, its base key from then on is exactly the key carried in that command, install mode is off and stays off, and the current session is closed.", "quantifier": "every key, every history", "why_tests_cant": "history property", "anchors": ["src/osdp_pd.c: pd_decode_command, osdp_pd_update"]}
{"id": "C27", "title": "The PD's base key changes only through an authorised KEYSET", "statement": "The PD's base key changes only when a KEYSET of type 1 and length 16 was received while the secure channel was active, the application callback accepted it and the ACK was sent.", "quantifier": "every byte stream, every history", "why_tests_cant": "adversary behaviour", "anchors": ["src/osdp_pd.c: pd_decode_command, osdp_pd_update"]}
{"id": "C28", "title": "The CP's base key changes only when the PD acknowledged that key", "statement": "The CP replaces the key it holds for a PD by the key of a KEYSET command only if that command was actually transmitted and acknowledged.", "quantifier": "every application command, every history", "why_tests_cant": "history dependent stale state", "anchors": ["src/osdp_cp.c: state_update, cp_check_online_response, cp_keyset_complete, cp_build_command"]}
{"id": "C29", "title": "Secure-channel inactivity timeout on the PD", "statement": "If more than 8 s pass since the last successfully processed secure command, the PD drops the session before looking at the next packet; a session used at least every 8 s is never dropped for inactivity; KEEPACTIVE extends the limit.", "quantifier": "every timing of refresh calls and packets", "why_tests_cant": "timing histories", "anchors": ["src/osdp_pd.c: osdp_pd_update, pd_decode_command"]}
{"id": "C30", "title": "Commands arrive at the PD application exactly as the CP application issued them", "statement": "For every valid output, LED, buzzer, text, COMSET, MFG, KEYSET and status command, the structure handed to the PD's callback equals the one given to osdp_cp_send_command (in every field the wire format carries).", "quantifier": "every value of every field", "why_tests_cant": "product of all field values", "anchors": ["src/osdp_cp.c: cp_build_command, cp_translate_cmd", "src/osdp_pd.c: pd_decode_command"]}
{"id": "C31", "title": "Events arrive at the CP application exactly as the PD application raised them", "statement": "For every valid card read, key press, status and MFG reply event, the event handed to the CP's callback equals the one given to osdp_pd_notify_event (in every field the wire format carries).", "quantifier": "every value of every field, every payload length within the documented limits", "why_tests_cant": "product of all field values", "anchors": ["src/osdp_pd.c: pd_translate_event, pd_build_reply", "src/osdp_cp.c: cp_decode_response"]}
{"id": "C32", "title": "Identity and capabilities are learned exactly", "statement": "After the ID and CAP exchanges, the identity and each capability the CP reports for a PD are the ones the PD was set up with (implicit capabilities included).", "quantifier": "every identity, every capability table", "why_tests_cant": "product of all field values", "anchors": ["src/osdp_pd.c: pd_build_reply, osdp_pd_set_attributes", "src/osdp_cp.c: cp_decode_response, osdp_cp_get_capability, osdp_cp_get_pd_id"]}
{"id": "C33", "title": "The PD application is only asked to do what the PD declared it can", "statement": "The command callback is invoked for output/LED/buzzer/text/input-status/output-status/keyset commands only if the matching capability was declared (and, for outputs and LEDs, the item number is within the declared count).", "quantifier": "every command packet, every capability table", "why_tests_cant": "all inputs", "anchors": ["src/osdp_pd.c: pd_cmd_cap_ok, pd_decode_command"]}
{"id": "C34", "title": "Refused commands are reported as refused", "statement": "If the PD application rejects a command (non-zero return) or the PD lacks the capability, the reply is a NAK, never an ACK.", "quantifier": "every command packet, every callback behaviour", "why_tests_cant": "all inputs x callback behaviours", "anchors": ["src/osdp_pd.c: pd_decode_command, do_command_callback"]}
{"id": "C35", "title": "Malformed command bodies are refused with NAK and not executed", "statement": "A command whose body length is not one the command allows is answered with NAK(command length) and does not reach the application.", "quantifier": "every command id, every body length and content", "why_tests_cant": "all malformed inputs", "anchors": ["src/osdp_pd.c: pd_decode_command"]}
{"id": "C36", "title": "At most one reply per received packet, exactly one per accepted command", "statement": "The PD never transmits unless it received a packet addressed to it, sends at most one packet per received packet and sends exactly one for each valid command.", "quantifier": "every byte stream, every history", "why_tests_cant": "all histories", "anchors": ["src/osdp_pd.c: osdp_pd_update, pd_send_reply"]}
{"id": "C37", "title": "No input crashes a PD", "statement": "No byte stream makes a PD abort or commit an invalid memory access.", "quantifier": "every byte stream, every configuration, every callback behaviour", "why_tests_cant": "infinite input space; several single-value triggers", "anchors": ["src/osdp_pd.c", "src/osdp_phy.c", "src/osdp_file.c", "src/osdp_common.c: osdp_cmd_name"]}
{"id": "C38", "title": "No reply crashes a CP", "statement": "No byte stream from a PD makes the CP abort or commit an invalid memory access.", "quantifier": "every byte stream, every state", "why_tests_cant": "infinite input space", "anchors": ["src/osdp_cp.c: cp_decode_response", "src/osdp_phy.c", "src/osdp_file.c"]}
{"id": "C39", "title": "Events are delivered in order, each exactly once", "statement": "Events accepted by osdp_pd_notify_event are handed out one per POLL in the order raised, none lost or duplicated; a full queue refuses with -1; flush empties the queue and returns the number removed.", "quantifier": "every interleaving of notify, poll and flush", "why_tests_cant": "all interleavings", "anchors": ["src/osdp_pd.c: osdp_pd_notify_event, osdp_pd_flush_events, pd_decode_command"]}
{"id": "C40", "title": "Commands are sent in order, each exactly once, before file data and polls", "statement": "Commands accepted by osdp_cp_send_command are transmitted in the order accepted; queued commands take precedence over file transfer and polling; flush empties the queue and returns the number removed; commands are refused unless the PD is online.", "quantifier": "every interleaving of send, refresh and flush", "why_tests_cant": "all interleavings", "anchors": ["src/osdp_cp.c: osdp_cp_send_command, osdp_cp_flush_commands, cp_get_online_command, cp_translate_cmd"]}
{"id": "C41", "title": "Command outcome notifications are truthful", "statement": "With notifications enabled the application is told outcome 0 for a command exactly if the PD accepted that command and -1 otherwise.", "quantifier": "every command, every history", "why_tests_cant": "history dependent", "anchors": ["src/osdp_cp.c: notify_command_status, state_update", "include/osdp.h: OSDP_EVENT_NOTIFICATION_COMMAND"]}
{"id": "C42", "title": "Online/offline notifications are truthful", "statement": "With notifications enabled, a PD-status notification carries 1 when the PD has just come online and 0 when it has just gone offline.", "quantifier": "every state change", "why_tests_cant": "all histories", "anchors": ["src/osdp_cp.c: cp_state_change, notify_pd_status", "include/osdp.h: OSDP_EVENT_NOTIFICATION_PD_STATUS"]}
{"id": "C43", "title": "COMSET on the PD", "statement": "A PD changes address/baud rate only on a COMSET with address < 0x7F and a supported baud rate that the application accepted; the reply is still sent from the old address and carries the new parameters; afterwards only the new (and broadcast) address is answered.", "quantifier": "every COMSET body, every callback behaviour, every history", "why_tests_cant": "all inputs", "anchors": ["src/osdp_pd.c: pd_decode_command, pd_build_reply"]}
{"id": "C44", "title": "COMSET on the CP", "statement": "The CP changes the address/baud rate it uses for a PD only in reaction to that PD's answer to a COMSET.", "quantifier": "every reply in every state", "why_tests_cant": "all histories", "anchors": ["src/osdp_cp.c: cp_decode_response"]}
{"id": "C45", "title": "Shared channel mutual exclusion", "statement": "On a channel shared by several PDs, at most one PD has an exchange in progress at any time: no command is sent to a second PD while a reply from the first is awaited.", "quantifier": "every topology, every history of refresh calls", "why_tests_cant": "all schedules", "anchors": ["src/osdp_cp.c: cp_channel_acquire, cp_channel_release, cp_refresh, cp_detect_connection_topology, cp_add_pd"]}
{"id": "C46", "title": "Every PD gets its turn", "statement": "Repeated osdp_cp_refresh serves all PDs in cyclic order; no PD is starved, also after PDs were added at run time, and callbacks name the right PD index.", "quantifier": "every number of PDs, every history of setup/add/refresh", "why_tests_cant": "unbounded schedules", "anchors": ["src/osdp_cp.c: osdp_cp_refresh, cp_add_pd"]}
{"id": "C47", "title": "Status bitmaps", "statement": "Bit i of the status bitmap is set iff PD i is online; bit i of the SC bitmap is set iff PD i has an active secure channel with a non-default key (and then it is online); all other bits of the written bytes are 0 and exactly ceil(n/8) bytes are written.", "quantifier": "every number of PDs, every combination of states", "why_tests_cant": "all combinations", "anchors": ["src/osdp_common.c: osdp_get_status_mask, osdp_get_sc_status_mask"]}
{"id": "C48", "title": "Run-time flag changes are confined", "statement": "osdp_cp_modify_flag changes exactly the requested bits among ENFORCE_SECURE, INSTALL_MODE and IGN_UNSOLICITED of exactly that PD, and refuses anything else without effect.", "quantifier": "every flag word, every PD state", "why_tests_cant": "2^32 flag words", "anchors": ["src/osdp_cp.c: osdp_cp_modify_flag"]}
{"id": "C49", "title": "File transfer integrity", "statement": "When a file transfer completes over a lossless link, the bytes written by the receiving application at the offsets it was told are exactly the sender's file, for any chunking chosen by the sender's read callback.", "quantifier": "every file content and size, every sequence of chunk sizes", "why_tests_cant": "all files", "anchors": ["src/osdp_file.c: osdp_file_cmd_tx_build, osdp_file_cmd_tx_decode, osdp_file_cmd_stat_build, osdp_file_cmd_stat_decode"]}
{"id": "C50", "title": "File transfer survives a lost acknowledgement", "statement": "If the PD's acknowledgement of a chunk is lost and the CP retransmits the chunk, the transfer still completes with the correct contents.", "quantifier": "every file, every loss position", "why_tests_cant": "all loss patterns", "anchors": ["src/osdp_file.c: osdp_file_cmd_tx_decode, osdp_file_cmd_stat_build, osdp_file_cmd_stat_decode"]}
{"id": "C51", "title": "File receiver respects announced size and offsets", "statement": "The receiving application's write callback is only called with a non-negative offset and data lying within the announced file size.", "quantifier": "every packet, every history", "why_tests_cant": "adversarial headers", "anchors": ["src/osdp_file.c: osdp_file_cmd_tx_decode"]}
{"id": "C52", "title": "File sender respects the file and the packet size", "statement": "The sending application's read callback is always asked for a positive number of bytes at the current offset, and the resulting packet fits the peer's buffer.", "quantifier": "every peer buffer size, mark/secure channel setting, every offset", "why_tests_cant": "all sizes", "anchors": ["src/osdp_file.c: osdp_file_cmd_tx_build", "src/osdp_phy.c: osdp_phy_packet_finalize"]}
{"id": "C53", "title": "A PD's error report stops the file transfer", "statement": "If the PD reports abort/unrecognised/malformed in a file transfer status, the CP does not report the transfer as progressing or complete.", "quantifier": "every status word at every point of the transfer", "why_tests_cant": "all histories", "anchors": ["src/osdp_file.c: osdp_file_cmd_stat_decode"]}
{"id": "C54", "title": "File transfer cancel and abort", "statement": "A cancel request for the file in transfer makes the CP close the file and send ABORT as its next file command; a PD receiving ABORT closes its file and forgets the transfer; any other cancel request is refused.", "quantifier": "every state of the transfer", "why_tests_cant": "all states", "anchors": ["src/osdp_file.c: osdp_file_tx_command, osdp_file_tx_get_command, osdp_file_tx_abort"]}
{"id": "C55", "title": "Offline back-off", "statement": "After going offline the CP sends nothing to that PD until more than 300 s have passed, then restarts from identification with sequence number 0.", "quantifier": "every timing of refresh calls", "why_tests_cant": "timing histories", "anchors": ["src/osdp_cp.c: get_next_ok_state, cp_state_change, state_get_cmd"]}
{"id": "C56", "title": "Connection establishment order", "statement": "The CP goes online only after receiving a PDID and a PDCAP reply (in that order since the last restart).", "quantifier": "every history of replies and timeouts", "why_tests_cant": "all histories", "anchors": ["src/osdp_cp.c: state_update, get_next_ok_state, state_check_reply"]}
{"id": "C57", "title": "Events are delivered only while online, with the contents received", "statement": "Whenever the CP's event callback runs for a PD event, that event is the one carried by the reply just received, and the PD is online.", "quantifier": "every history", "why_tests_cant": "stale state across states", "anchors": ["src/osdp_cp.c: state_update, do_event_callback, cp_decode_response"]}
{"id": "C58", "title": "A peer's announced buffer size cannot disable communication", "statement": "Whatever receive-buffer size a peer announces, the device can still send its shortest replies/commands (so that communication can be re-established).", "quantifier": "every announced size", "why_tests_cant": "65536 sizes x histories", "anchors": ["src/osdp_common.h: get_tx_buf_size", "src/osdp_phy.c: osdp_phy_packet_init", "src/osdp_pd.c: CMD_ACURXSIZE", "src/osdp_cp.c: REPLY_PDCAP"]}
{"id": "C59", "title": "Broadcast and addressing", "statement": "A PD answers a command sent to its own address from its own address and a broadcast command from the broadcast address; the following reply is not affected by an earlier broadcast.", "quantifier": "every address, every history", "why_tests_cant": "history dependent flag", "anchors": ["src/osdp_phy.c: phy_check_packet, osdp_phy_packet_init"]}
{"id": "C60", "title": "Setup refuses insecure ENFORCE_SECURE", "statement": "osdp_cp_setup, osdp_cp_add_pd and osdp_pd_setup fail when ENFORCE_SECURE is requested for a PD without a key; a PD set up without a key starts in install mode.", "quantifier": "every configuration", "why_tests_cant": "all configurations", "anchors": ["src/osdp_cp.c: cp_add_pd, osdp_cp_setup", "src/osdp_pd.c: osdp_pd_setup"]}
{"id": "C61", "title": "Out-of-range PD index is harmless", "statement": "Every per-PD API call with an index outside 0..n-1 returns -1 and changes nothing.", "quantifier": "every index, every context", "why_tests_cant": "all integers", "anchors": ["src/osdp_common.h: input_check", "src/osdp_cp.c: osdp_cp_send_command, osdp_cp_flush_commands, osdp_cp_get_pd_id, osdp_cp_get_capability, osdp_cp_modify_flag", "src/osdp_file.c: osdp_file_register_ops, osdp_get_file_tx_status"]}
{"id": "C62", "title": "Invalid application commands are refused", "statement": "osdp_cp_send_command refuses a command with an unknown id or unusable contents instead of failing later.", "quantifier": "every command structure", "why_tests_cant": "all structures", "anchors": ["src/osdp_cp.c: osdp_cp_send_command, cp_translate_cmd, cp_build_command"]}
{"id": "C63", "title": "The bundled block cipher is AES-128 as specified in FIPS 197", "statement": "Encrypting a block with the bundled cipher gives the result FIPS 197 prescribes for AES-128 (S-box from inversion in GF(2^8) and the affine map, ShiftRows, MixColumns, key schedule, ten rounds); decrypting gives the one block that the FIPS 197 cipher maps to the input.", "quantifier": "every 128-bit key and every block", "why_tests_cant": "2^256 key/block pairs; test vectors exercise a handful of S-box entries and round keys, and an error made alike in encryption and decryption passes every round-trip test", "anchors": ["src/crypto/tinyaes_src.c: sbox, Rcon, KeyExpansion, SubBytes, ShiftRows, MixColumns, Cipher, InvCipher", "src/crypto/tinyaes.c: osdp_encrypt, osdp_decrypt"]}
{"id": "C64", "title": "What leaves an end of an active secure session is authenticated, and its data is enciphered", "statement": "Every packet an end of an active secure channel hands to the transport carries a MAC under the session keys chained to the last message from the other end, and, if the message has data, that data is enciphered (a security block type with encryption, data padded to whole blocks that decipher under the session key to exactly the composed message). The MAC is the one from which the sender continues the chain.", "quantifier": "every state of the CP reachable by a history of API calls, every state of the PD, every received byte stream, application behaviour and amount of data the channel accepts; every block cipher", "why_tests_cant": "a packet sent in the clear looks right to every functional test that decodes it, and which packets are protected depends on the state, the reply and its failure; tests see a few of the combinations", "anchors": ["src/osdp_phy.c: phy_build_packet_tail (osdp_phy_packet_finalize)", "src/osdp_cp.c: cp_build_command (SCS_15/17)", "src/osdp_pd.c: pd_build_reply (SCS_16/18)", "src/osdp_sc.c: osdp_encrypt_data, osdp_compute_mac"]}
{"id": "C65", "title": "A pause on the line puts the receiver of a PD back in order", "statement": "Whatever the PD received before (noise, half packets, packets for other devices, an abandoned secure channel): once the line has been silent for 200 ms and the PD has been refreshed often enough to work off its receive buffers (768 visits suffice), an intact clear-text command with sequence number 0 addressed to it - or, without secure channel, with any sequence number the PD accepts - is answered with exactly one reply bearing that sequence number.", "quantifier": "every history of API calls and received bytes since setup that does not crash the PD, every pause with other API calls in between, every command except file transfer, every reply buffer size of at least 164 bytes", "why_tests_cant": "the receiver has many half-finished states (mark seen, header incomplete, length believed, broadcast flag, secure channel active, time stamp of an older packet) and a test tries a few; that none of them can last needs a measure that decreases in all of them", "anchors": ["src/osdp_phy.c: osdp_phy_check_packet, phy_check_header, osdp_phy_state_reset", "src/osdp_pd.c: osdp_pd_update, pd_receive_and_process_command"]}
{"id": "C66", "title": "A healthy link comes up by itself", "statement": "A CP that has just been set up, or that has been offline for its waiting time, and a PD at its address that has the same key: if the packets they send are delivered, the CP asks for the identity, asks for the capabilities, shakes hands, and both ends are then online in one secure session under that key; the CP sends nothing else and the application need do nothing. It does not matter whether the PD is new or still has the session of an earlier meeting. When the PD does not offer the secure channel and the CP does not insist on it, the link comes up in the clear instead.", "quantifier": "every CP state satisfying the CP's invariant in the initial or the offline state with an empty receiver and no pending request; every PD state with an empty receiver, any sequence number and any session; every identity and capability table that offers the secure channel and a receive buffer of 0 (unlimited) or at least 69 bytes; every timing of the visits, every random number, every block cipher", "why_tests_cant": "what the two ends remember of an earlier life (sequence numbers, session keys, MACs, flags, capability tables) multiplies into far more starting points than a test sets up; the tests start both ends freshly", "anchors": ["src/osdp_cp.c: state_update, get_next_ok_state, cp_state_change, cp_build_command, cp_decode_response", "src/osdp_pd.c: pd_decode_command, pd_build_reply", "src/osdp_sc.c"]}
{"id": "C67", "title": "A CP never falls silent", "statement": "However the line, the PD and the application behaved so far, and whatever arrives from now on, a CP that is refreshed regularly goes on sending commands to each of its PDs: it never gets stuck waiting, in an error state or in a back-off that does not end. When it is visited at least every d ms, something is sent within six (and one for each waiting application command) times 300000 + d ms.", "quantifier": "every cipher, every setup, every history of visits and API calls whose clock values are not in the future, every later sequence of visits with a clock that does not run backwards, with arbitrary received bytes, file callbacks and channel capacities", "why_tests_cant": "a liveness statement about all futures of all histories; a test waits for a limited time after a limited set of disturbances, and the waiting times are minutes", "anchors": ["src/osdp_cp.c: state_update, cp_phy_state_update, get_next_ok_state, get_next_err_state, cp_get_online_command", "src/osdp_phy.c: osdp_phy_packet_init, phy_check_header, osdp_phy_packet_finalize", "src/osdp_file.c: osdp_file_tx_get_command"]}
{"id": "C68", "title": "A command with several settings is carried out setting by setting", "statement": "A command for outputs, LEDs or buzzers may carry several settings one after the other. The application of the PD is asked to carry them out in the order of the packet, each with exactly the values at its place in the packet, up to the first one that is beyond the announced capabilities or that the application refuses; it is asked for nothing else. If the PD is capable of all of them and the application refuses none, all are carried out.", "quantifier": "every cipher, every PD state ready to receive (in the clear, or in an active session), every number and every values of settings that fit a packet, every behaviour of the application, every packet for the PD with the right sequence number, in the clear or sealed under the session", "why_tests_cant": "the project's CP never sends more than one setting per packet, so its tests between its own two ends cannot reach the second round of the loop; the values and the place of the refusal are arbitrary", "anchors": ["src/osdp_pd.c: pd_decode_command (CMD_OUT, CMD_LED, CMD_BUZ), pd_cmd_cap_ok, do_command_callback"]}
{"id": "C69", "title": "One lost packet is repaired by the repetition of the command", "statement": "When the packet of a command, or the answer to it, is lost on the line, the CP repeats the command. The command has then been carried out by the application of the PD exactly once, the exchange is completed, and the PD stays online (and in its session, if there is one).", "quantifier": "every cipher, every CP and PD in step with each other (in the clear or in a session), every valid command, every time at which the loss is noticed and the repetition sent, loss of the command or of the answer", "why_tests_cant": "the tests of the project run over channels that lose nothing; a loss must hit a particular packet, and the outcome depends on the sequence numbers and the MAC chain at that moment", "anchors": ["src/osdp_cp.c: cp_phy_state_update (REPLY_WAIT, WAIT, SEND_CMD), cp_build_and_send_packet", "src/osdp_phy.c: osdp_phy_get_seq_number, osdp_phy_packet_init, phy_check_packet", "src/osdp_pd.c: pd_receive_and_process_command"]}
{"id": "C70", "title": "A new PD is commissioned without human help", "statement": "A CP that has a key of its own and does not insist on it meets a PD that has another key or none, but is ready to be installed. If no packet is lost and the application of the PD accepts the key, then the CP notices that its key is not the PD's, opens a session with the default key, hands over its own key (and nothing else) in that session, and both start again: they end in one session under the CP's key, the PD keeps that key and is no longer ready to be installed.", "quantifier": "every cipher, every CP that starts, every PD in installation mode or using the default key with any key or none, every times and circumstances of the some fifteen visits, every random numbers for which the two cryptograms differ", "why_tests_cant": "a run of a dozen packets through both state machines whose outcome depends on keys, random numbers and flags at both ends; a test takes one pair of keys and one schedule", "anchors": ["src/osdp_cp.c: get_next_ok_state, get_next_err_state, cp_state_change, cp_keyset_complete, cp_build_command (CMD_KEYSET), cp_decode_response (REPLY_CCRYPT)", "src/osdp_pd.c: pd_decode_command (CMD_CHLNG, CMD_SCRYPT, CMD_KEYSET), osdp_pd_update (key committed after the reply)", "src/osdp_sc.c: osdp_sc_setup, osdp_compute_session_keys"]}
{"id": "C71", "title": "Every challenge carries a number drawn for it", "statement": "Whenever the CP challenges a PD, the packet carries a random number that the CP drew for this challenge: no number is used for two challenges with different keys, in two attempts, or in two sessions. (A repetition of the same packet after a lost answer is the same challenge.)", "quantifier": "every cipher, every setup, every history of the CP with arbitrary received bytes and API calls", "why_tests_cant": "freshness is a relation between a packet and the whole history before it; a test with one random source that always works does not see that a number is used twice", "anchors": ["src/osdp_sc.c: osdp_sc_setup", "src/osdp_cp.c: cp_state_change, get_next_err_state, cp_build_command (CMD_CHLNG)"]}
{"id": "C72", "title": "An answer is taken only for the command it answers", "statement": "Whatever the CP takes as the answer to a command is an intact reply packet from the PD the command was sent to, bears the number of that command, and arrived after the command was sent. Only from such answers the CP learns anything about the PD: its identity, capabilities, address, events and the progress of a file transfer.", "quantifier": "every cipher, every setup, every history of the CP with arbitrary received bytes, visits and API calls", "why_tests_cant": "late, early, foreign and duplicated packets can arrive at any moment of any exchange, in any fragmentation; a test can only try a few of them, and a test partner that answers properly tries none", "anchors": ["src/osdp_phy.c: phy_check_header, phy_check_packet, osdp_phy_check_packet", "src/osdp_cp.c: cp_process_reply, cp_phy_state_update", "src/osdp_phy.c: osdp_phy_state_reset"]}
{"id": "C73", "title": "What a PD overhears leaves no trace", "statement": "Two histories of a PD that differ only in that in one of them it overhears, in quiet moments, packets exchanged between the CP and other devices on the line, are the same in everything the PD does: the packets it sends, the commands it passes to the application, the file operations, and faults.", "quantifier": "every cipher, every setup, every state a PD can reach, every pair of histories that differ in any number of overheard packets, with arbitrary other traffic, time-outs and API calls in between", "why_tests_cant": "a difference may show up at any later time, for any later packet, and depends on the exact bytes of both; a test compares one pair of histories, the property is about all of them", "anchors": ["src/osdp_phy.c: phy_check_header, phy_check_packet, osdp_phy_check_packet, osdp_phy_decode_packet, osdp_phy_state_reset", "src/osdp_pd.c: pd_receive_and_process_command, osdp_pd_update"]}
{"id": "C74", "title": "A command that arrives twice is carried out once", "statement": "If the same command packet reaches a PD a second time (repeated by the CP because the reply was lost, duplicated on the line, or recorded and replayed), the PD does not carry the command out a second time.", "quantifier": "every cipher, every setup, any two states a PD can reach with the same session keys, every packet of a session, whatever happened in between", "why_tests_cant": "the second arrival may come at any later time of the session, after any other traffic; a test replays a few packets at a few moments", "anchors": ["src/osdp_phy.c: osdp_phy_check_packet (sequence number check), osdp_phy_decode_packet (MAC verification)", "src/osdp_sc.c: osdp_compute_mac", "src/osdp_pd.c: pd_receive_and_process_command, pd_send_reply"]}
{"id": "C75", "title": "A status request is answered with the status the PD application gives", "statement": "When the CP's application asks for the status of the inputs, the outputs, the device or the reader, and the request and its answer get through, the PD's application is asked once for that status, and the CP's application gets exactly one event: the report that the PD's application gave.", "quantifier": "every cipher, every setup and state both ends can be in between two exchanges, in the clear or in a session, the four kinds of status, every report the application may give", "why_tests_cant": "the answer passes through both ends, encryption, the capability tables of both and a bit mask of up to 32 entries; tests try a few reports in one state", "anchors": ["src/osdp_pd.c: pd_decode_command (CMD_LSTAT, CMD_ISTAT, CMD_OSTAT, CMD_RSTAT), pd_build_reply", "src/osdp_cp.c: cp_translate_cmd, cp_decode_response, cp_process_reply"]}
{"id": "C76", "title": "A key on its way to a PD cannot be read off the line", "statement": "A key leaves the CP only in a packet of a secure session, enciphered with a session key that can be derived only by those who know a secret base key: nobody who merely listens to the line can read it.", "quantifier": "every cipher, every setup, every history of the CP with arbitrary received bytes, visits and API calls; every packet sent", "why_tests_cant": "a leak is a packet that should not have been sent in some state or other, and whether a listener can compute the key is not visible in the behaviour of either end", "anchors": ["src/osdp_cp.c: cp_translate_cmd (OSDP_CMD_KEYSET), cp_build_command (CMD_KEYSET), cp_phy_state_update, get_next_ok_state (OSDP_CP_STATE_SET_SCBK)", "src/osdp_sc.c: osdp_compute_session_keys, osdp_encrypt_data", "src/osdp_phy.c: phy_packet_finalize"]}
{"id": "C77", "title": "With ENFORCE_SECURE the default key is not used", "statement": "With OSDP_FLAG_ENFORCE_SECURE (documented: \"Don't allow use of SCBK-D\") set on an end, that end opens no session keyed by the default key SCBK-D, announces none, and sends nothing sealed by it, whatever the other end sends.", "quantifier": "every cipher, every setup with the flag, every history with arbitrary received bytes, visits and API calls (the flag not being cleared)", "why_tests_cant": "the peer chooses what it sends; a test shows that one proper PD is not talked to with SCBK-D, not that no sequence of packets makes the CP use it", "anchors": ["include/osdp.h: OSDP_FLAG_ENFORCE_SECURE", "src/osdp_phy.c: phy_decode_packet (SCS_11, SCS_13)", "src/osdp_cp.c: get_next_ok_state, get_next_err_state, cp_build_command (CMD_CHLNG, CMD_SCRYPT), osdp_cp_modify_flag", "src/osdp_sc.c: osdp_compute_session_keys", "src/osdp_pd.c: osdp_pd_setup"]}
{"id": "C78", "title": "Install mode admits one session with the default key", "statement": "A PD in install mode opens at most one session keyed by the default key SCBK-D (documented: \"the PD would allow one session of secure channel to be setup with SCBK-D\"); once a key has been set, no session of the default key is open or opened any more.", "quantifier": "every cipher, every setup, every history of the PD with arbitrary received bytes, visits and API calls", "why_tests_cant": "a test commissions a PD once and sees that it worked; that nothing an attacker sends before or afterwards opens another session with the publicly known key is about all histories", "anchors": ["include/osdp.h: OSDP_FLAG_INSTALL_MODE", "src/osdp_pd.c: osdp_pd_update (CMD_KEYSET acknowledged), pd_decode_command (CMD_SCRYPT), pd_build_reply (REPLY_CCRYPT, REPLY_RMAC_I)", "src/osdp_phy.c: phy_decode_packet (SCS_11, SCS_13)"]}
{"id": "C79", "title": "Adding PDs leaves the PDs already connected undisturbed", "statement": "osdp_cp_add_pd on a CP in operation only adds: every PD that was there keeps its place, its state, keys and session, the commands waiting for it are still sent, commands for it are still accepted and queued, it keeps getting its turn under its own number, and the exclusive use of its channel continues.", "quantifier": "every cipher, every setup, every history of API calls and received bytes before and after the addition, every list of added PDs", "why_tests_cant": "tests add PDs to a CP that has none or is idle; the damage needs an addition at a moment when commands wait or a reply is outstanding, and accesses to freed memory often go unnoticed", "anchors": ["src/osdp_cp.c: cp_add_pd, cp_detect_connection_topology, cp_cmd_queue_init, cp_cmd_alloc, cp_cmd_dequeue", "include/osdp.h: osdp_cp_add_pd"]}
{"id": "C80", "title": "The value returned by the command callback decides the reply", "statement": "When the PD's application has been given a command that is answered with ACK when carried out (OUT, LED, BUZ, TEXT, MFG), the reply is ACK if its callback returned 0, NAK if it returned a negative value and, for MFG, MFGREP with what the callback left in the command if it returned a positive value.", "quantifier": "every cipher, every state of a PD that waits for a command, every such command, every behaviour of the callback", "why_tests_cant": "the callback is arbitrary code; the tests of the library return 0 or -1 only, so the branch for positive values is never exercised", "anchors": ["include/osdp.h: pd_command_callback_t", "src/osdp_pd.c: do_command_callback, pd_decode_command"]}
{"id": "C81", "title": "Unknown replies to a POLL and IGN_UNSOLICITED", "statement": "With OSDP_FLAG_IGN_UNSOLICITED a PD that answers a POLL with a reply whose code the CP does not know stays connected: it remains online, nothing is reported to the application, what the CP knows about it, the commands waiting and a file transfer stay as they are and the next command can be sent. Without the flag, or after another command, the PD goes offline.", "quantifier": "every cipher, every history of the CP leading to a PD that is online and has been sent a command, every reply packet with a code outside the library's list, every body", "why_tests_cant": "there are 239 unknown codes, arbitrary bodies and arbitrarily many states in which they may arrive; no test of the library uses the flag", "anchors": ["include/osdp.h: OSDP_FLAG_IGN_UNSOLICITED", "src/osdp_cp.c: cp_phy_state_update, cp_check_online_response"]}
{"id": "C82", "title": "A context gives back, once, everything it has taken", "statement": "Whatever allocation fails, whatever the PD records say and whatever is done with a context between setup and teardown: no call aborts, nothing is used or released that is not held, a setup that returns NULL holds nothing, a call that fails holds what it held before, and after teardown (\"Cleanup all osdp resources\") the context, the PD array, the channel locks, the file structures, the packet captures and the files opened by transfers have each been released exactly once.", "quantifier": "every pattern of failing allocations and capture files, every list of PD records, every sequence of adding PDs, registering file operations, traffic and file transfers, CP and PD", "why_tests_cant": "the patterns of failing allocations and the sequences of calls are unbounded; allocation failures are not provoked by tests, and a leak or a second release is not visible in a return value", "anchors": ["include/osdp.h: osdp_cp_setup, osdp_pd_setup, osdp_cp_teardown, osdp_pd_teardown", "src/osdp_cp.c: cp_add_pd, cp_detect_connection_topology, osdp_cp_setup, osdp_cp_teardown", "src/osdp_pd.c: osdp_pd_setup, osdp_pd_teardown", "src/osdp_diag.c: osdp_packet_capture_init, osdp_packet_capture_finish", "src/osdp_file.c: osdp_file_register_ops"]}
{"id": "C83", "title": "The bundled cipher works in place, on the blocks it is given and on nothing else", "statement": "osdp_encrypt and osdp_decrypt of the bundled AES, called with a 16-byte key and len a whole number of blocks inside the buffer, end without an access outside any array: with an IV the blocks are replaced by their CBC encryption (decryption) with the AES-128 of FIPS 197 as in NIST SP 800-38A, without one the first block by its AES encryption (decryption), and every byte of the buffer after them is unchanged. This does not depend on what the uninitialised context on the stack held.", "quantifier": "every key, IV, buffer, number of blocks, every content of the stack", "why_tests_cant": "2^128 keys and blocks, unbounded buffers; in-place updates that read an already overwritten byte, or a stale byte of the uninitialised schedule, show only for some values, and a stray write behind the data is not looked for", "anchors": ["src/crypto/tinyaes_src.c: KeyExpansion, AddRoundKey, SubBytes, ShiftRows, MixColumns, InvMixColumns, InvShiftRows, Cipher, InvCipher, XorWithIv, AES_CBC_encrypt_buffer, AES_CBC_decrypt_buffer", "src/crypto/tinyaes.c: osdp_encrypt, osdp_decrypt"]}
{"id": "C84", "title": "Data is sealed and opened in place, within its own bytes", "statement": "osdp_encrypt_data, where data plus padding fits, replaces the data, a marker byte and zeros up to a whole block by their CBC encryption under the session key with the complement of the last MAC as initial vector and returns the new length; osdp_decrypt_data undoes this, returning the length of the data, and returns a negative value exactly when the deciphered bytes do not end in a marker and zeros; osdp_compute_mac stores the specified chained MAC of any message of 1 to 256 bytes. None of them accesses memory outside its arrays or changes a byte in front of or behind the blocks.", "quantifier": "every session state, buffer, position, data length, every message of 1 to 256 bytes, every content of the stack", "why_tests_cant": "the space of keys, buffers and contents is unbounded; an overrun by the padding or a byte changed in front of the data does not show in the value returned", "anchors": ["src/osdp_sc.c: osdp_encrypt_data, osdp_decrypt_data, osdp_compute_mac", "src/osdp_common.h: AES_PAD_LEN", "src/crypto/tinyaes.c: osdp_encrypt, osdp_decrypt"]}
{"id": "C85", "title": "Random bytes are defined, and none is favoured", "statement": "Whatever value between 0 and RAND_MAX the C library's rand() returns, osdp_fill_random of the bundled crypto stores a defined byte, and each of the 256 bytes is stored for the same share of these values, up to 2^-16 of it. (The bytes are the random numbers of the secure channel handshake.)", "quantifier": "all 2^31 values of rand(), all 256 bytes", "why_tests_cant": "an undefined conversion of 64 out of 2^31 values does not turn up in a test, nor does a slight bias; both follow from the rounding of single precision floats", "anchors": ["src/crypto/tinyaes.c: osdp_fill_random", "src/osdp_sc.c: osdp_sc_setup", "src/osdp_pd.c: CMD_CHLNG"]}
{"id": "C86", "title": "A packet is finished inside its buffer", "statement": "osdp_phy_packet_finalize, given the packet buffer with an unfinished packet and the number of bytes it may use, either replaces the unfinished packet by the finished one (right length field, data padded and encrypted, chained MAC, CRC), returns its length and leaves the rest of the buffer alone, or, when the finished packet is longer than allowed, returns a negative value; in no case is a byte read or written outside the buffer or written at or behind the limit.", "quantifier": "all packets, keys, buffer contents and limits up to the buffer size, with and without mark byte, in and out of a session", "why_tests_cant": "the limit is passed only by packets of certain lengths, and the overrun shows only in bytes nobody looks at", "anchors": ["src/osdp_phy.c: osdp_phy_packet_init", "src/osdp_phy.c: osdp_phy_packet_finalize", "src/osdp_sc.c: osdp_encrypt_data, osdp_compute_mac"]}
{"id": "C87", "title": "Tracing a conversation does not change it", "statement": "Asking for packets to be captured (OSDP_FLAG_CAPTURE_PACKETS, in a build with packet trace or data trace) changes neither what is sent nor what is made of a received packet: the finished packet, the MAC kept, the outcome of taking a packet apart, and the length and bytes handed on are the same as without. Every packet captured by the data trace carries a length field equal to its own size, a control byte with the trace bit, and the data before encryption or after decryption.", "quantifier": "all packets, keys, buffer contents, devices and ciphers, both directions, with and without mark byte, in and out of a session", "why_tests_cant": "the trace rewrites the header and moves the data inside the very buffer the packet lives in; whether that ever shows depends on where the data begins (security block, mark byte) and on lengths that only damaged or hostile packets have, and test suites run with tracing off", "anchors": ["src/osdp_diag.c:58-65", "src/osdp_phy.c:230-247", "src/osdp_phy.c:318-320", "src/osdp_phy.c:535-537", "src/osdp_phy.c:674-706"]}
{"id": "C88", "title": "Keys and cryptograms are computed in place", "statement": "The functions of the handshake that work on the secure channel record (starting it, deriving the session keys from the pairing key or the default key, making and checking either cryptogram, making the first MAC, deriving a PD's pairing key from a master key) write exactly the member they are for, with the value the protocol names, leave every other member as it was, neither read nor write outside the record, their local buffer and the caller's 16 bytes, and do not depend on what the stack held before.", "quantifier": "all keys, random numbers, client ids, earlier contents of the record, stack and locals, both settings of the default key flag", "why_tests_cant": "the values are computed in the member itself, one step of AES per call, with random numbers and leftovers in the buffers; a store one byte off or a forgotten byte shows only when the other end computes the same member differently, and a stale byte may by chance be right", "anchors": ["src/osdp_sc.c:17-131", "src/osdp_sc.c:219-245", "src/osdp_common.h:353-365"]}
{"id": "C89", "title": "A file transfer that keeps failing is given up", "statement": "A CP that cannot bring a fragment of a file across gives the transfer up after a bounded number of attempts (the library names ten): it tells the PD with ABORT, forgets the transfer and sends no further fragment of it.", "quantifier": "all histories of application calls and of bytes received, all files, fragment sizes and answers of the PD", "why_tests_cant": "the library has a counter and a limit for it, and a test of one failure sees the counter count; that it is reset before it can grow shows only in long histories of repeated failures", "anchors": ["src/osdp_file.c:20", "src/osdp_file.c:60-118", "src/osdp_file.c:120-192", "src/osdp_file.c:341-365"]}
{"id": "C90", "title": "The PD sets the pace of a file transfer", "statement": "When the PD's file transfer status asks for a delay, the CP neither reads nor sends a fragment of the file before the delay is over; if the PD has also asked for silence, the CP begins no command of its own meanwhile; if it has asked to be polled for the next status, the CP polls instead of sending fragments until that status has come, and takes it; otherwise the next command after the delay is the next fragment.", "quantifier": "all delays, control bytes, histories before and after the status, times of the visits, commands and cancellations by the application meanwhile", "why_tests_cant": "whether a fragment may go out depends on the clock, on three bits of an earlier reply and on what else is queued; a test fixes one delay and one schedule", "anchors": ["src/osdp_file.c:120-192", "src/osdp_file.c:341-365", "src/osdp_cp.c:1020-1031"]}
{"id": "C91", "title": "An opened file is closed once, and not used afterwards", "statement": "The application's file operations are called in a sensible order: a file is opened only when none is open, read, written and closed only while it is open, and when the transfer is over, however it ended, the file has been closed.", "quantifier": "all histories of application calls and of bytes received, at the CP and at the PD, all files, fragment sizes, statuses, cancellations and aborts", "why_tests_cant": "a test checks the contents of the file that arrives; a second close or a file left open shows only in the ends of transfers that fail, and there only in the application", "anchors": ["src/osdp_file.c:58-118", "src/osdp_file.c:120-192", "src/osdp_file.c:196-265", "src/osdp_file.c:267-331", "src/osdp_file.c:370-416"]}
{"id": "C92", "title": "A received packet is opened inside its buffer", "statement": "Checking the MAC of a received packet and deciphering its data touch nothing outside the packet buffer, change nothing in it before the packet's control byte or behind the packet, and depend on nothing but the packet and the session; a packet sealed by the other end is handed on as it was before sealing, any other packet of the session is refused.", "quantifier": "all packets held, with and without mark byte, all session keys and MACs, all contents of the rest of the buffer and of the stack", "why_tests_cant": "in a test the bytes around the buffer are whatever they happen to be, and the padding search that leaves the data runs into harmless bytes", "anchors": ["src/osdp_phy.c:542-672", "src/osdp_sc.c:133-163", "src/osdp_sc.c:185-217"]}
{"id": "C93", "title": "Numbers in packets are put together without overflow", "statement": "Every number that fits its field of 2, 3 or 4 bytes (identity, COMSET/COM baud rate, file size, offset and length, event lengths) is put together from its bytes to itself, and every status report of at most 32 entries to the mask of its non-zero entries, by arithmetic that C defines.", "quantifier": "all numbers of each width, all identities, all COMSETs, all fragments, all status reports", "why_tests_cant": "shifting a one into the sign bit happens to give the wanted bits with most compilers and flags, so a test passes although the program has no defined meaning", "anchors": ["src/osdp_cp.c:423-443", "src/osdp_cp.c:480-513", "src/osdp_cp.c:549-552", "src/osdp_pd.c:500-509", "src/osdp_common.h:91-105", "src/osdp_file.c:210-219"]}
{"id": "C94", "title": "The secure channel does not depend on the cipher library", "statement": "With each of the three cipher back ends (bundled AES, OpenSSL, mbedtls) keys, cryptograms, enciphered data and MACs are the same, so that ends built with different libraries understand each other; every library object is ready whenever it is used.", "quantifier": "all three libraries on either end, all keys, data and session states, all histories of handshakes and sessions of a process", "why_tests_cant": "a test suite is built with one library, and an unseeded generator still returns bytes", "anchors": ["src/crypto/tinyaes.c:17-47", "src/crypto/openssl.c:31-101", "src/crypto/mbedtls.c:17-96", "src/osdp_sc.c:17-251", "src/osdp_pd.c:872-880", "src/osdp_common.h:552-558"]}
{"id": "C95", "title": "A PD may take its time to process a file", "statement": "When a PD answers the last fragment of a file with the status 3 (not yet done), the CP goes on asking with fragments without data, and does not read the file any more; the first other status ends the transfer and is reported to the application; the connection stays.", "quantifier": "all histories of a CP before and after, all files, all PDs, all answers", "why_tests_cant": "the PD of the same library never sends the status 3, so the phase is not reached by tests that join the two ends", "anchors": ["src/osdp_file.h:44-51", "src/osdp_file.c:58-90", "src/osdp_file.c:120-192", "src/osdp_file.c:341-416", "src/osdp_file.c:439-453"]}
{"id": "C96", "title": "A session is keyed by the key that the CP asks for", "statement": "The session keys a PD derives for a CHLNG are those of its own key if the security block names that (1), and in install mode those of the default key SCBK-D if the block names it (0), and the reply names the key used; its own key is one that it was given at set up or by KEYSET.", "quantifier": "all histories of a PD, all keys, random numbers and packets, installed or not", "why_tests_cant": "tests run one handshake after set up; here a packet of another peer before it decides about the key of every later session", "anchors": ["src/osdp_phy.c:578-589", "src/osdp_sc.c:17-60", "src/osdp_pd.c:866-935", "src/osdp_pd.c:1036-1048", "include/osdp.h:37-45"]}
{"id": "C97", "title": "A PD may ask for smaller file messages", "statement": "When a file transfer status names a maximum message size k > 0, the CP sends no longer packet with a fragment of the file from then on (until another status); a status that names 0 leaves the limit as it was.", "quantifier": "all histories of a CP, all statuses, sizes, files and announced buffer sizes", "why_tests_cant": "the PD of this library always names 0, so no test between its own two ends ever has another size", "anchors": ["src/osdp_file.h:58-66", "src/osdp_file.c:57-118", "src/osdp_file.c:120-192", "src/osdp_file.c:267-319"]}
{"id": "C98", "title": "A file is received only with the consent of the application", "statement": "Whenever a PD opens a file for receiving, its application has just been asked for this file (OSDP_CMD_FILE_TX with the file's id and flags 0) and has not refused. If it refuses, nothing is opened or written and the CP is told with NAK. What is written to a file comes from fragments of that file.", "quantifier": "all histories of a PD, all fragments, applications and answers", "why_tests_cant": "tests send one file to an application that agrees; refusals, missing applications and fragments of another file do not occur", "anchors": ["src/osdp_file.c:196-265", "src/osdp_pd.c:586-594", "include/osdp.h:673-688", "include/osdp.h:898-912"]}
{"id": "C99", "title": "Encrypted data blocks without data are tolerated only on request, and only by a PD", "statement": "A PD set up with OSDP_FLAG_ALLOW_EMPTY_ENCRYPTED_DATA_BLOCK that receives, in a secure session, a command as SCS_17 packet with the right MAC but no data carries it out as if it had come as SCS_15, and the session goes on. Without the flag the command is not carried out and the session ends. A CP is not affected by the flag.", "quantifier": "all reachable PDs in a session, all commands and packets, all ciphers; all CPs in a session", "why_tests_cant": "no test sends an empty encrypted block; libosdp itself never produces one, so two ends of the library never exercise the flag", "anchors": ["include/osdp.h:75-84", "src/osdp_sc.c:133-163", "src/osdp_phy.c:640-672", "src/osdp_cp.c:1420-1424"]}
{"id": "C100", "title": "A PD can keep other commands off while it receives a file", "statement": "After a file transfer status in which the PD does not permit interleaving (control bit 0 clear), and until the next status or the end of the transfer, the CP begins no command but those the transfer needs: the next fragment, the POLL the PD asked for, and ABORT if the application cancels.", "quantifier": "all histories of a CP, all statuses, all commands of the application, all times", "why_tests_cant": "the PD of the library always permits interleaving, so no test sees the bit clear; the order of commands, statuses and delays is unbounded", "anchors": ["src/osdp_file.c:150-154", "src/osdp_file.c:268-272", "src/osdp_file.c:337-365", "src/osdp_cp.c:924-946"]}
{"id": "C101", "title": "A file whose transfer began in a secure session does not leave in the clear", "statement": "When the application hands a file over while a secure channel is active, every fragment of it is sent within an active secure channel: neither a file transfer status in which the PD asks for plain text nor the loss of the session makes the CP send a fragment in the clear.", "quantifier": "every cipher, all histories of a CP, everything that is heard, including from somebody without the key", "why_tests_cant": "a test sees the transfer over one connection; what becomes of it when the session is lost and the next one who answers has no secure channel takes an attacker's sequence of packets, and the absence of a clear fragment is a statement about all histories", "anchors": ["src/osdp_file.c:77-79", "src/osdp_file.c:150-154", "src/osdp_file.c:337-365", "src/osdp_cp.c:924-946", "src/osdp_cp.c: cp_state_change, state_update"]}
{"id": "C102", "title": "What the application hands over in a secure session does not leave in the clear", "statement": "An event that the application of a PD reports, or a command that the application of a CP hands over, while a secure channel is active is sent only within an active secure channel, under its keys.", "quantifier": "every cipher, all histories of a PD or CP, everything that arrives, including from somebody without the key", "why_tests_cant": "tests send events and commands over the connection in which they were queued; the leak needs the session to end between the hand-over and the transmission, by a packet that no honest peer sends", "anchors": ["src/osdp_phy.c:439-452", "src/osdp_pd.c:299-312", "src/osdp_pd.c: pd_decode_command, osdp_pd_notify_event", "src/osdp_cp.c:924-946", "src/osdp_cp.c: cp_state_change, osdp_cp_send_command"]}
{"id": "C103", "title": "A secure session is not ended by somebody without its keys", "statement": "While a secure channel is active between a CP and a PD, nothing that was not made with its keys ends it at either end: no packet in the clear, no damaged packet, no packet for another device.", "quantifier": "every cipher, every state of a PD in a session, everything that arrives from somebody without the key", "why_tests_cant": "tests of the secure channel run over an undisturbed line; ending a session is invisible to them because the honest peer builds a new one at once", "anchors": ["src/osdp_phy.c:409-452", "src/osdp_phy.c:600-624", "src/osdp_pd.c:968-1004", "src/osdp_pd.c: osdp_pd_update", "src/osdp_cp.c: cp_process_reply"]}
{"id": "C104", "title": "A damaged answer is repaired by the repetition of the command", "statement": "An answer of a PD that arrives at the CP damaged is treated like one that does not arrive: the CP repeats the command, and the PD stays online and in its session.", "quantifier": "every cipher, every state of a CP in which the answer of an online PD is awaited, every damage of the answer", "why_tests_cant": "tests that drop packets see the repetition; damage comes in as many forms as there are packets, and what the CP does depends on whether a complete packet is left of it", "anchors": ["src/osdp_cp.c: cp_process_reply, cp_phy_state_update, get_next_err_state, cp_state_change", "src/osdp_phy.c: osdp_phy_check_packet, phy_check_packet"]}
{"id": "C105", "title": "Packets that are not meant for it do not disturb a CP", "statement": "While a CP awaits the answer of a PD, whatever else is on the line and is not an answer of this PD (noise, late answers of other PDs, commands, the echo of its own command) is ignored: the PD stays online and in its session.", "quantifier": "every cipher, every state of a CP in which the answer of an online PD is awaited, every foreign packet", "why_tests_cant": "tests connect each PD by a channel of its own, on which no foreign packet ever appears", "anchors": ["src/osdp_phy.c:380-384", "src/osdp_phy.c:428-436", "src/osdp_cp.c: cp_process_reply, cp_phy_state_update, get_next_err_state"]}
{"id": "C106", "title": "A PD that answers late stays online", "statement": "If a PD answers a command only when the CP has given up waiting and is about to repeat the command, so that the late answer arrives before the answer to the repetition, the exchange is completed and the PD stays online, in its session if there is one.", "quantifier": "every cipher, every state of a CP with an online PD, every late answer", "why_tests_cant": "a simulated PD answers at once or never; an answer between 200 ms and the repetition 800 ms later needs a PD that is slow at the right moment", "anchors": ["src/osdp_phy.c:487-494", "src/osdp_cp.c: cp_process_reply, cp_phy_state_update", "src/osdp_phy.c: osdp_phy_packet_init (sequence number of the repetition)"]}
