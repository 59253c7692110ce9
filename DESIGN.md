# Design

Subject: libosdp (C), /repo at the pinned commit. `/repo/utils` (slab, queue,
disjoint set, logger, assert macros) is an empty submodule, so those pieces are
represented by their contracts only.

## 1. Shape of the model

The model lives in `lean/Verif/Model/*.lean` (one file per C file or concern);
the properties are stated in `lean/Verif/Spec/*.lean` (small, independent
definitions: what a user expects) and proved in `lean/Verif/Props/*.lean`
(theorems + a non-vacuity `example` beside each). Helper lemmas sit in
`lean/Verif/Lemmas/*.lean`.

* Bytes are `BitVec 8`; C `int`s that can go negative are `Int`; sizes are
  `Nat` with explicit truncation where the C type truncates.
* Anything that is undefined behaviour, an assertion failure, a NULL
  dereference, an out-of-bounds access or `exit()` in C is a distinct outcome:
  model functions return `Except Fault α`. No totalised default hides it.
* The block cipher is a parameter (`structure Cipher` with `dec k (enc k b) = b`),
  instantiated with the model of the bundled AES.
* The environment of one refresh call (current time, bytes the channel's recv
  returns, random bytes, result of send, application callback, file callbacks)
  is an explicit argument; observable effects (bytes sent, callbacks made, file
  operations) are returned as a list. A history is a list of such environments,
  so "for every input, schedule, history" is a quantifier over lists.
* The receive ring buffer is modelled concretely in `Model/RingBuf.lean`, proved
  to refine a bounded FIFO (C01), and used as that FIFO by the other modules.

### Deliberate simplifications (also stated at each definition)

* Time does not advance within one refresh call.
* Logging, `osdp_logger_*`, the pcap file format (the hooks themselves are `Model/Trace`), version
  strings, Zephyr/Arduino specifics, mbedtls/openssl back ends, the language
  bindings (python, rust, C++), and `pd->name` strings are not modelled.
* `ephemeral_data` is a tagged sum; reading it under another tag than it was
  written with is the distinct outcome `typePun`.
* Slab allocation of commands/events is a capacity bound (parameter).
* Integers that index or count are unbounded `Nat`/`Int`; truncations in the C
  code (uint8_t/uint16_t fields, `& 0xff`) are modelled where they can occur.
* AES is used by the protocol models as functions on blocks; `Model/AesMem.lean`
  follows `tinyaes_src.c` in memory and C83 proves it to compute these functions.

## 2. Per property: what is modelled, how it is proved

Kinds: R round trip, I invariant by induction over histories, D decision logic,
F refinement, X refutation by concrete witness plus a `_partial` theorem.

| id | kind | modelled code and proof plan |
|----|------|------------------------------|
| C01 | F | push/pop on head, tail and 512-byte array; abstraction to a list; simulation for every operation sequence. `C01_receive`, `C01_scan`: `osdp_channel_receive` and the search for a start byte, written on the ring buffer, are refined by the functions on lists that the receiver model uses |
| C02 | F,D | per-byte update as 16-bit ops; bit-serial polynomial spec; equality by linearity + finite basis; burst detection from injectivity of the zero-byte step and linearity |
| C03 | D | sum lemma, single-byte change lemma |
| C04 | R | packet_init+finalize then check_header+check_packet+decode on the produced bytes |
| C05 | I | PD and CP runs: `announced` folds over the history what the peer announced last; every packet sent satisfies `Spec.Announce.Fits` |
| C06 | X | receiver run over any history; the only way out of bounds is a length field of 256 (witness: marked 256-byte packet) |
| C07 | I | receiver run over any partition of the stream (mark flag excepted) |
| C08 | X | reply of another PD is skipped after its header only, so embedded command is executed; `_partial`: foreign packets of command direction are skipped whole |
| C09 | D | PD: refresh with a damaged packet has no effect, and any effect needs an intact packet. CP (`C09Cp`): same for what the CP learns, its key, the events and the command reports; one packet of any contents, and any history |
| C10 | I | sequence stepping of init/reset/busy |
| C11 | X | single step acceptance holds; the clause about later packets is false (expected number advances on mismatch) |
| C12 | I | BUSY reply, whole or divided between visits, leads, whatever happens within 800 ms, to the same bytes again; X for a numbered BUSY |
| C13 | X | retry invariant over all CP histories; the "full budget for each command" clause is refuted |
| C14 | R | AES tables by kernel computation, MixColumns by linearity, then rounds and key schedule generically |
| C15 | R | padding lemma + CBC inverse |
| C16 | I | both complete state machines on a line that carries one packet at a time (`Linked`); invariant `Sync`: equal keys, MAC state as the direction requires |
| C17 | X | SCS_11..14 accepted without MAC; `_partial`: all other packets |
| C18 | X | same on the CP |
| C19 | D | decode_packet |
| C20 | R | four visits of the CP and two refreshes of the PD composed symbolically, for every cipher, keys and random numbers |
| C21 | I | record (`Hail`) of the last challenge and the cryptogram received, folded over the history beside the CP run |
| C22 | X | SCRYPT without CHLNG from boot: all-zero key cryptogram accepted; `_partial`: activation only with cryptogram matching stored session keys |
| C23 | I | PD run (crash on unnamed command id is recorded under C37) |
| C24 | I,X | CP run; the flag set at run time is refuted |
| C25 | I | PD run |
| C26 | I | PD run |
| C27 | I | PD run ("secure channel active" is the authorisation condition; see C17 for its weakness) |
| C28 | X | CP run; the key changes only at the end of a KEYSET exchange; the unsent KEYSET is the refutation |
| C29 | X | timeout part holds; KEEPACTIVE part is false |
| C30 | R | CP queue -> wire -> PD callback, plain and secured, against `Spec.CmdWire` |
| C31 | R | PD queue -> POLL reply -> CP callback, plain and secured, against `Spec.EventWire` |
| C32 | R | PDID/PDCAP exchange, then kept over any later history; X for capabilities of an earlier PD |
| C33 | D | decode_command |
| C34 | X | OUT/LED/BUZ overwrite the NAK with ACK; `_partial`: other commands |
| C35 | X | FILETRANSFER malformed is not NAKed; `_partial`: others |
| C36 | I | PD run: at most one reply per intact command; exactly one under listed conditions, in the clear (`Props/C36.lean`) and in a secure session, there also for packets with a wrong MAC (`Props/C36Sc.lean`) |
| C37 | X | inductive `Trigger` lists seven causes; proved complete over all histories, each realised by a witness |
| C38 | X | inductive `Hazard` lists eight causes; proved complete over all histories, each realised by a witness |
| C39 | I,X | accepted = released ++ queued over all histories; the exchange POLL - event in the clear (`C39_poll_delivers`) and in a session (`C39_poll_delivers_secure`, from `Sealed` to `Sealed`); loss cases are witnesses |
| C40 | I,X | accepted = begun ++ queued over all histories (flush included); dropped KEYSET is a witness |
| C41 | X | codes are 1/0 instead of 0/-1, and stale reply |
| C42 | X | offline notification carries 1 |
| C43 | I | PD |
| C44 | X | REPLY_COM accepted for any command |
| C45 | I,X | multi-PD context: visits log; exclusion invariant on channel locks; fails after add_pd and for channel id 0 |
| C46 | I,X | multi-PD context: round robin order, fairness bound; fails after add_pd |
| C47 | D | mask computation; `C47_history`: over every history of API calls, `osdp_cp_add_pd` included, both masks are right and the secure mask is contained in the online mask |
| C48 | D | modify_flag |
| C49 | I, X | sender and receiver on a lossless line, in a session or in the clear, also across the end of a session and the beginning of the next; invariant: stored bytes = prefix of the file up to the sender offset. Witness: an ABORT refused because the PD gave up the session |
| C50 | X | general theorem: every repeated fragment is counted twice, for every file; end-to-end witnesses |
| C51 | X | file operation log of any PD history; header offset unchecked |
| C52 | X | reads over all histories; in a secure session exactly the announced sizes of `Roomy` (9 of 16 residues) work: for them every fragment fits (`C52_partial`), for the others a full fragment is never sent (`C52_never_fits`, run in `C52_toolarge`) |
| C53 | X | CP run; negative status ignored mid-transfer |
| C54 | I,X | CP and PD runs; keep-alive after cancel is the refutation |
| C55 | I | CP state machine |
| C56 | I | CP state machine |
| C57 | X | CP run; stale report delivered later is the refutation |
| C58 | X | announced size 1..68 |
| C59 | D,I | address byte |
| C60 | D | setup |
| C61 | D | index checks; with a good index, exactly the sixteen capability codes are answered |
| C62 | X | unknown id reaches BUG() |
| C63 | R | own specification of FIPS 197 (`Spec/Fips197`: field arithmetic by polynomials, S-box by inversion and affine map, state as matrix, word-wise key schedule); S-box, doubling and Rcon by kernel computation over all bytes, MixColumns by linearity, rounds and key schedule by induction |
| C64 | P | `Spec/Sealed`: a packet whose MAC and ciphertext are those of the session; CP: from the invariant of reachable states every packet sent in an active session is sealed (`C64_cp`, full); PD: the same for a refresh after which the session is active or in which a new key was handed to the application (the ACK to KEYSET, with which the session ends), with two exceptions: RMAC_I, which opens the session, and the substitute NAK (`C64_pd_partial`) |
| C65 | F | Each quiet visit either leaves the receiver idle or makes the stored bytes (packet buffer + FIFO, at most 256+511) fewer: `refresh_quiet`; the time stamp is never later than the last visit (`run_timed`); then `one_reply` (the general form of C36: also with a secure channel, which sequence number 0 ends). `C65_pause_needed`: too short a pause, or a pause without visits, loses the command |
| C66 | F | The two clear-text exchanges (`Lemmas/Meet.lean`: `cp_asks`, `pd_reads`, `pd_explains`, `cp_learns_id`, `cp_learns_cap`) joined with the handshake of C20; the statement quantifies over the circumstances of each of the 12 visits in turn (`ComesUp`). Visits that find nothing are left out. Requires an empty CP receiver (the CP does not clear it on going offline) and, for a CP built without mark byte, no stale mark flag |
| C67 | X | A rank (`Lemmas/CpBeat.lean`: `rank`, at most 6 + queue length) that every visit without a packet lowers, unless the timer being waited for was set less than five minutes ago (`update_beat`); all timers are at most five minutes and never in the future (`Timers`). The two ways to lose the voice for good (`Mute`) are proved to be for ever (`C67_mute_forever`) and the only ones (`C67_keeps_sending_partial`). During the stretch of visits the application submits nothing: commands that cannot be translated, submitted faster than they are taken off the queue, would starve polling |
| C68 | R | Written from the packet (`Spec/Records.lean`: `several` is code and settings, `CarriedOut` which of them the application sees), for packets in the clear (`C68_clear`, and `C68_complete` when nothing is refused) and for packets sealed under the session (`C68_secure`, from `Sealed`). Induction over the record loop (`records_carried`). What the PD replies when a setting is refused is C34's subject (it acknowledges). Not covered: a command without any setting in a session, where nothing is executed (C35). |
| C69 | X | The repetition carries the number after that of the command (`C69_repeats`), so the property fails in each case, for every command and every number: command lost → refused by the PD, PD given up by the CP (`C69_lost_command`, both ends in the clear or in a session); answer lost in the clear → carried out twice (`C69_lost_answer_clear`); answer lost in a session → not carried out again unless 4 bytes of two MACs coincide, but the session ends (`C69_lost_answer_secure_partial`). `Repeated` is the history of the CP (issue, send, silence, repeat); the PD's part is in the hypotheses of each theorem. Not covered: POLL and file transfer repetitions (file fragments: C50). |
| C70 | R | Both ends composed. `Commissions` is the course of events written as nested visits (`Handshakes` of C20, `Quiet` of C66, `HandsOver` for the key packet and its answer). `C70_installs`: from the challenge with the default key to the session under the own key, with the single request the PD's application gets. `C70_falls_back`: the wrong cryptogram and the turn to the default key (its conclusion also says that the second challenge repeats the random number of the first, see C71). `C70_commissions`: from two ends that never met. Hypotheses: the cryptograms differ for the numbers drawn (else the CP is deceived, C18); the PD is visited within its session timeout and its application accepts the key. Losses are not covered. |
| C71 | X | `C71_partial`: over every history, the number in a challenge was drawn in a visit since which the CP has done nothing but challenge the PD (`Drawn`), so never a number of an earlier session or attempt. The full statement fails: the number is drawn on entering the challenge state, and the fallback to the default key stays in that state (`C71_reused`: two challenges, two keys, one number). Built on the bookkeeping of C21. The quality of `osdp_fill_random` is outside the model. |
| C72 | X | Over every history from set up: `Outstanding` (while the CP waits, the last packet on the wire carries its current number and address) is carried along with `run_ind`. `C72_partial`: a packet taken as an answer is intact, among the bytes received, marked as a reply, and has the number of the last packet sent and its address (or the broadcast address). `C72_learns_from_answers`: in a visit without an answer nothing about the PD changes, no event is delivered (but see C57) and a file transfer does not move on. The full statement fails twice: a packet that arrived before the command was sent is taken as its answer (`C72_early`), and so is a reply with the broadcast address (`C72_anyone`). |
| C73 | X | A statement about pairs of runs. `Sim` (Lemmas/Stale): two PD objects are equal but for the bytes of the packet buffer behind those collected so far and, with nothing collected, the mark flag and the time of the last arrival. `checkPacket_two`, `decode_two`, `dispatch_wb`, `finish_two`, `refresh_two`: a refresh of related objects has related results and the same effects. `overhears_command`, `overhears_reply`: an overheard packet leads to an object related to the one that heard nothing. `C73_partial`: induction over `Overhearing`, the pairs of histories. Assumed of every other refresh (`Regular`): no more bytes arrive at once than fit the FIFO, and no packet for this PD announces a security block it is too short for. `C73_stale`, `C73_swallowed`: witnesses that packets overheard do change what the PD does otherwise. |
| C74 | X | `acted_tag`: a PD acts on a packet of the session only if its MAC continues the chain. `mac_inj`: the MAC of one text under two chaining values is different (only `dec_enc` is used of the cipher). `C74_replay_partial`: if the PD acts on one packet in two states with the same session keys, then the chaining value is the same in both, or the two different MACs agree in the four bytes transmitted (nothing can be said about that without assumptions on the cipher). `C74_clear`, `C74_silent`: witnesses that the command is carried out again otherwise. |
| C75 | R | Both ends composed, as in C30 and C31: `dispatch_status` (what the PD makes of the request and of its application's answer), `status_answer` (the body of the reply), `encode_reads` of C31 (the CP reads from it what was encoded). `C75_partial`: in the clear or in a session, for PDs of at most 31 inputs and outputs (beyond, `1 << i` shifts out of range: C37) whose application gives the right number of entries and leaves the kind of the request alone; the announced receive buffer of the CP has at least 69 bytes (C58). |
| C76 | I, X | `C76_partial`: over every history, a packet sent outside a session is no KEYSET; one sent in a session is `Sealed` (C64) under session keys derived from the key the CP holds or, in state SET_SCBK, from the default key (C21). `C76_overheard` is the missing part: for every cipher, when a PD is commissioned, the function `keyRead`, which uses only the default key, the two random numbers carried in the clear and the packet, yields the CP's own key. `Link.eight` and the example after it run the listener on the packets of C70's sample. |
| C77 | I, X | `C77_partial`: invariant `Own` (ENFORCE_SECURE set, INSTALL_MODE and SC_USE_SCBKD clear) over every history whose flag changes keep it (`Leaves`); with `Sess` (C21) a session is one of the key the CP holds, CHLNG and SCRYPT name that key, packets in a session are `Sealed` (C64) by its keys. For the PD: C25. Refuted with INSTALL_MODE: `C77_tricked` (CP), `C77_pd` (PD). |
| C78 | I, X | `C78_partial`: a refresh that sets a key (`KeySet`: the PD leaves install mode or its base key changes) ends the session and install mode, and in every history after it session keys are the old ones or derived from the base key held at some later moment (`Keyed`, C25): no new ones from the default key. Refuted: `C78_twice` (before the key is set), `C78_reopened` (the old session, after it). |
| C79 | I, X | `Model/CpHeap` adds to the CP context the allocation in which each PD's queue nodes lie. `C79_kept_partial`: the PD objects keep their values. `C79_setup`: without an addition the memory model agrees with the list model of all other properties. Refuted: `C79_lost` (for every history: nothing of an earlier PD's queue can be touched after an addition), `C79_dangling`, and `C45_add`, `C46_starved`, `C46_misnamed`. |
| C80 | D, X | `C80_partial`: the exchange in the clear, from the packet to the one reply packet, for return values 0 (all five commands) and below 0 (TEXT, MFG). `C80_secure_partial` (`C80Sc`): the same in a secure session, command and reply sealed. Refuted for positive values by `C80_no_mfgrep`, a general theorem (`C80_secure_no_mfgrep` in a session); for negative values with OUT, LED, BUZ by `C34_rejected_acknowledged`. |
| C81 | D, X | `C81_partial`: one visit of the CP from any reachable state, for all unknown codes but 0; challenged again only when there is no session and 600 s have passed since the last attempt. `C81_without`: offline without the flag or after another command. Refuted for code 0 by `C81_zero`, a general theorem. New invariant for it: a PD that is online has no pending request to go offline between visits (`Reached.calm`). |
| C82 | I, X | `Model/Life.lean`: setup, add, register, teardown reduced to the resources they take, with an environment that lets any attempt fail; specification `Spec/Ledger.lean` reads only the list of takes, uses and releases. `C82_partial` (CP) and `C82_pd_partial` (PD): for whole lives of a context, within whatever the rest of the program holds; proof by a small separation logic (`Moves`). Not covered: captures that fail or are refused, files open at teardown, each refuted. Build with CONFIG_OSDP_STATIC_PD not modelled. |
| C83 | F | `Model/AesMem.lean` follows tinyaes_src.c load by load and store by store (programs over one array, pointers as indices, accesses outside an array fault, `Iv` may point into the data); `Spec/Cbc.lean` is SP 800-38A over `Spec/Fips197.lean`. The steps of a round by computation on 16 symbolic bytes, relocation to any place of a buffer by one lemma about programs (`run_at`), key schedule and chaining by induction. `C83_refines`: the functions `cbcEnc`/`cbcDec`/`aes` used by the protocol models are what this code computes. |
| C84 | F, R, X | `Model/ScMem.lean` follows the three functions on the buffer, on top of `Model/AesMem.lean`; specifications `Spec/Cbc.lean` and `Spec/Session.lean`. `C84_seal`, `C84_open_partial` (one or more blocks), `C84_roundtrip`, `C84_mac`; `computeMac_run` equates the memory level with `Sc.computeMac` including its faults. Missing from the full statement: opening no data without the flag, refuted by `C84_before`. Negative lengths are not modelled here (`Sc.decryptData` has them as a fault). |
| C85 | D, X | `Model/Random.lean`: the conversion with single precision rounding made explicit. Bounds for the rounding by cases on the exponent, then arithmetic. Assumes RAND_MAX = 2^31 - 1, IEEE single precision, FLT_EVAL_METHOD 0. |
| C86 | F, I, X | `Model/PhyMem.lean` follows `osdp_phy_packet_init` and `osdp_phy_packet_finalize` on the buffer, on top of C83 and C84. `finalize_agrees` equates it with `Phy.finalize` (result, faults, MAC kept, buffer), so every claim about packets sent rests on the stores of the code; `C86_plain`, `C86_sealed` state the outcome by `Spec/Wire.lean` and `Spec/Sealed.lean`. |
| C87 | F, I, X | `Model/Trace.lean`: the capture hooks of src/osdp_phy.c; finishing a packet on top of `Model/PhyMem.lean`, decoding written once with its end as a parameter. `bare_packet` shows that with the untraced end it is `Phy.decodePacket`, `shape_packet` that nothing before the end depends on it. `C87_sent`, `C87_received_partial`: same outcome with and without; `Dissectable` says what a captured packet looks like. |
| C88 | F, I | `Model/KeyMem.lean`: src/osdp_sc.c:17-131, 219-245 on the 152 bytes of `struct osdp_secure_channel`, with the bundled AES of `Model/AesMem.lean`. `Holds m sc` names the place of each member; each function is shown to leave the members of `Spec/Session.lean`. `C88_model`: they are the functions of `Model/Sc.lean`, on which C17-C20 and the others rest. |
| C89 | D, I, X | `Model/File.lean`, `Model/CpRun.lean`. Invariant over all histories: the error counter is at most 1 (`C89_count`), hence without a request to cancel no ABORT is ever begun (`C89_never`); `C89_partial`: when the application cannot read the file, ABORT goes out in place of the fragment and the transfer is forgotten; `C89_forever`: the same fragment over and over. |
| C90 | D, I, X | `Model/File.lean`, `Model/CpRun.lean`. `StatusAt` says that a status arrives, `Meanwhile` is any history after it without a further one, `delay`/`control` read the status (Spec). Invariant `PacedFile`. `C90_delay`, `C90_exclusive`, `C90_poll`, `C90_after`; `C90_polled` is the refutation of 'and takes it'. |
| C91 | I, X | `Spec/Handles.lean`: the order in which file operations may be called, with the application's answers. `track` runs a history and keeps the account. `C91_pd`: at the PD the account holds in every history in which closing works; `C91_cp_partial`: at the CP, in every history in which opens, reads and closes succeed and the last status ends the transfer; `C91_misuse`: the other cases. |
| C92 | F, R, X | `Model/OpenMem.lean` runs `osdp_phy_decode_packet` on the buffer with the functions of C84. `C92_agrees`: same outcome as `Phy.decodePacket` with AES (faults included), so that the properties about received packets hold for the code with its in-place deciphering; `C92_within_partial`: what is touched, and that the stack does not matter; `C92_opens`/`C92_refuses`: against `Spec/Sealed.lean` and `Spec/Wire.lean`; `C92_roundtrip`: with C86, from one buffer to the other; `C92_overlong`: a fault. |
| C93 | R, X, F | `Model/CInt.lean` follows the expressions shift by shift, with `int` of 32 bits and a fault for a result that is not an `int`. Spec: the bytes `n / 256 ^ i` of a number. `C93_narrow`: 2 and 3 bytes, all numbers; `C93_wide_partial`/`C93_undefined`: 4 bytes, defined exactly below 2 ^ 31; `C93_identity_partial`, `C93_status_partial`: the fields of PDID and the masks of status reports, in both cases; `C93_model`: where it is defined the arithmetic gives what the other models (`ofLe`) take, and it is defined for every COMSET that is accepted. |
| C94 | F, R, X | `Model/Backend.lean`: the glue of the three back ends over the documented behaviour of OpenSSL and mbedtls, initial value and errors included, and src/osdp_sc.c on top. `C94_calls`: against `Spec/Cbc.lean` and `Spec/Fips197.lean`; `C94_handshake`/`C94_session`: equal to `Model/Sc.lean`, so every property about sessions holds for each library; `C94_interop`: one library on each end; `C94_negative`: where they differ. Objects: `C94_stateless` (no global objects), `C94_cp_partial` (mbedtls on a CP), `C94_objects` (refutation: a PD; several PDs). |
| C95 | X, I, D | `Model/File.lean`, `Model/Cp.lean`. `C95_begins`: the status 3 is understood; `C95_asks`: an idle CP turns to the PD again; `C95_partial`: with a fragment of no data at the end of the file (an invariant of all histories), byte for byte in the clear. `C95_never` (refutation, for every history in which the application begins no other transfer): the transfer is never reported as done; `C95_dropped`: each answer costs the connection; `C95_loop`: a concrete history. |
| C96 | D, I, X | `Model/Phy.lean` (`noteScbkd`), `Model/Pd.lean`, `Model/Sc.lean`; keys by `Spec/Session.lean`. `C96_partial`: the key asked for, as long as no packet has named the default key, with the reply byte for byte; `C96_spoiled` (refutation, for every history): afterwards the default key, whatever is asked for; `C96_asked`, `C96_locked_out`, `C96_zero_key`: concrete histories, the second with a CP. |
| C97 | I, X | `Model/File.lean`, `Model/Cp.lean`. `C97_partial`: heeded if the size is 0, or at least 256, or at least the size among the PD's capabilities (from C05); `C97_same`: statuses that differ in the size only have the same effect; `C97_ignored` (refutation): after any status and any history, a fragment in the clear comes in a packet of the announced size less 13 (243 if none was announced); `C97_own`: a PD of this library names 0; `C97_64`: concrete. |
| C98 | I, D, X | `Model/File.lean` (`rxVeto`, `rxBegin`, `txDecode`), `Model/Pd.lean`. `C98_partial`: asked and not refused before every open, over all histories, if there is an application; `C98_refused`: after a refusal nothing happens, and nothing is sent; `C98_mixed` (refutation): a fragment of another file is written to the open one; `C98_unasked`, `C98_other`: concrete. |
| C99 | D, X | `Model/Sc.lean` (`decryptData`), `Model/Phy.lean`. `C99_taken`: with the flag the SCS_17 packet without data is carried out like the SCS_15 packet, in the same state but for the MAC chain and the buffer; `C99_partial`: a POLL is answered with a sealed ACK; `C99_refused`: without the flag (from C19); `C99_cp` (refutation): every CP heeds the flag when it decodes a reply; `C99_mode`: concrete. |
| C100 | I, D, X | `Model/File.lean` (`statDecode`, `getCommand`), `Model/Cp.lean` (`onlineCommand`). `Minds`: what the PD asked for stays with the transfer over any history without a further status. `C100_partial`: with no command of the application queued, only the transfer's own commands are begun; `C100_interrupted` (refutation): every queued command is begun in between; `C100_led`: concrete. |
| C101 | I, X | `Model/File.lean`, `Model/Cp.lean`, `Model/Phy.lean` as for C24 and C64. `C101_session`: while the session lasts every packet is sealed, whatever the transfer's flags; `C101_partial`: with ENFORCE_SECURE for the whole life of the CP; `C101_kept`: no loss of the session touches the transfer; `C101_leak` (refutation): three unprotected packets, and the next fragment leaves in the clear. |
| C102 | I, X | `Model/Pd.lean`, `Model/Cp.lean`, `Model/Phy.lean` as for C23, C24 and C64. `C102_pd_partial`: an ENFORCE_SECURE PD lets an event go only in a sealed packet; `C102_cp_partial`: an ENFORCE_SECURE CP sends no command of the application in the clear, ever; `C102_pd_leak`, `C102_cp_leak` (refutations without the flag). |
| C103 | R, X | `Model/Pd.lean`, `Model/Cp.lean`, `Model/Phy.lean`. `C103_partial`: at a PD, silence, packets of others and the beginning of a packet leave the session; `C103_pd` (refuted for every PD and cipher: one unprotected POLL with sequence number 0), `C103_noise` (every PD: a damaged packet, even for another device), `C103_cp` (an unprotected NAK) are refutations. |
| C104 | R, X | `Model/Cp.lean`, `Model/Phy.lean`. `C104_partial`: while what has arrived is no complete packet the PD stays online and the command is repeated after 200 ms; `C104_offline` refutes the rest for every CP: any complete packet with a wrong check value takes the PD offline for 300 s. |
| C105 | R, X | `Model/Cp.lean`, `Model/Phy.lean`. `C105_partial`: bytes without a start byte leave the PD online and in its session; refuted otherwise for every CP: `C105_other` (any intact answer of another PD), `C105_echo` (any command on the line). |
| C106 | R, X | `Model/Cp.lean`, `Model/Phy.lean`. `C106_partial`: while the CP waits to repeat a command nothing is read or changed; `C106_number`: at every CP an answer with the number of another command takes the PD offline for 300 s; `C106_late`: history from setup in which one answer is late and the PD is taken offline. |

Inexpressible: nothing is dropped outright; properties about secrecy or about
computational unforgeability of AES/MAC are deliberately not claimed (they are
not statements about this code). "Acts only on authenticated commands" is
stated as "the MAC field equals the MAC computed under the session keys".

## 3. Trusted base

* Lean 4.33.0 kernel; axioms `propext`, `Classical.choice`, `Quot.sound` only (checked with `#print axioms` over every
  claimed theorem). Concrete witnesses use `decide +kernel`, which is evaluation by the kernel.
* The hand translation from C to the model definitions (each cites file:lines).
* The contracts assumed for the missing `utils` submodule: queues are FIFO lists, the slab pool hands out up to its capacity,
  `osdp_millis_now` gives the time of the environment, `disjoint_set` gives one channel lock per channel id.

### Modelled code

| C source | model | what is in it |
|---|---|---|
| src/osdp_common.c:18-33, 45-87, 129-185 | `Model/Crc`, `Model/Pd` (`cmdNameOk`), `Model/RingBuf` | CRC-16, which command names are NULL, ring buffer |
| src/osdp_phy.c (whole, without tracing) | `Model/Phy` | channel I/O, packet init/finalize/send, header and packet checks, decode, state reset |
| src/osdp_sc.c (whole) | `Model/Sc`, `Model/Cbc` | key derivation, cryptograms, R-MAC-I, data encryption, MAC |
| src/crypto/tinyaes.c:49-57 | `Model/Random` | random bytes from `rand()` |
| src/osdp_diag.c:58-65, the hooks in src/osdp_phy.c | `Model/Trace` | what packet trace and data trace hand out, and what they do to the packet buffer |
| src/osdp_phy.c:141-305 on memory | `Model/PhyMem` | header, padding, MAC and CRC of a packet to be sent, in the packet buffer |
| src/osdp_sc.c:17-131, 219-245 on memory | `Model/KeyMem` | keys, cryptograms, first MAC, start of a handshake |
| src/osdp_phy.c:542-672 on memory | `Model/OpenMem` | opening a received packet in place |
| reading numbers (src/osdp_cp.c:423-443, 480-513, 549-552; src/osdp_pd.c:500-509; src/osdp_common.h:91-105; src/osdp_file.c:210-219) in C arithmetic | `Model/CInt.lean` | `int` of 32 bits |
| src/crypto/tinyaes.c, openssl.c, mbedtls.c and their callers in src/osdp_sc.c | `Model/Backend` | mode, length and initial value handling, assertions, set-up and tear-down; the two external libraries by their documentation |
| src/osdp_sc.c:133-217 on memory | `Model/ScMem` | padding, data encryption and MAC in place |
| src/crypto/tinyaes_src.c, tinyaes.c | `Model/Aes`, `Model/Cbc`, `Model/AesMem` | AES-128 block cipher and CBC mode, as functions and store by store |
| src/osdp_file.c (whole) | `Model/File` | sender and receiver of a transfer, abort, status calls, registration |
| src/osdp_pd.c (whole) | `Model/Pd`, `Model/PdRun` | command decoding and execution, replies, refresh, setup, event queue, capabilities |
| src/osdp_cp.c: one PD | `Model/Cp`, `Model/CpRun` | command building, response decoding, phy and protocol state machines, notifications, API calls for one PD |
| src/osdp_cp.c: the context | `Model/CpCtx` | channel locks, refresh order, setup, add_pd, status masks, index checks, get/modify calls |
| src/osdp_cp.c: memory of the command queues | `Model/CpHeap` | which allocation the slab of a PD lies in, before and after add_pd |
| src/osdp_cp.c, osdp_pd.c, osdp_diag.c, osdp_file.c: setup and teardown | `Model/Life` | what is allocated, used and released by setup, add_pd, register_ops, capture and teardown |
| include/osdp.h, src/osdp_common.h | `Model/Types`, `Model/Base` | commands, events, flags, the device object, faults |

### Not modelled

* Logging, the file packet capture writes (utils/pcap_gen.c), the C++/Python/Rust bindings, osdpctl, the
  Zephyr and Arduino glue, the OpenSSL and mbedtls libraries (their documented behaviour is assumed in `Model/Backend`).
* Wall-clock progress inside one refresh; 32/64-bit wrap-around of the millisecond clock.
* `pd->name`, version strings, and the content of uninitialised memory (read as zero).
* Data races: every API call is atomic.
* The room for data in a packet whose header `cp_build_command` looks for one byte too far (`CONFIG_OSDP_SKIP_MARK_BYTE`, after a
  packet with a mark byte was heard). Nothing is sent then in the code and in the model; the number of bytes asked of the application's
  `read` may differ.

Faults seen while reading that lie outside the model, so nothing is proved about them:
* A PDCAP reply with function code 0 passes `cp_get_cap_name(0)`, which is NULL, to a `%s` of `LOG_DBG`.
* Packet capture: a marked packet of 256 bytes trips the length assertion of `osdp_capture_packet`.

## 4. Disagreements between code and expected property

Each is a theorem about the model (a concrete history evaluated by the kernel unless said otherwise).

Memory safety and crashes
* A marked packet with length field 256 writes one byte past `packet_buf` (`C06_receive_overflow`, `C37_long`, `C38_long`);
  `phy_check_header` compares the length without the mark byte (src/osdp_phy.c:386-394).
* KEYPAD and RAW replies of more than 64 data bytes overflow the event on the CP's stack (`C38_keys`, `C38_card`; src/osdp_cp.c:558-591).
* A security block longer than its packet makes the MAC be computed over a negative number of bytes (`C37_block`, `C38_block`).
* An unassigned command id in plain text makes an ENFORCE_SECURE PD dereference NULL in a log message (`C23_crash`, `C37_unnamed`).
* LSTAT with no callback registered calls NULL (`C37_lstat`). `osdp_get_status_mask` without PDs dereferences NULL (`C47_no_pd_crashes`).
* Assertions reachable from the line: file fragments that overrun the announced size (`C37_fragment`), FTSTAT of more than 7 bytes
  (`C38_status`), a file that grew (`C38_grown`), a small announced buffer and a long MFG or reply (`C37_tight`, `C38_tight`),
  more than 31 inputs (`C37_items`, shift out of range).
* A failed fragment leaves the FILETRANSFER command to be built again, which reaches `BUG()` (`C38_fragment`).
* A stale event is delivered after its storage was reused; if it was reused for the KEYSET of installation, the application's event
  callback is handed the new base key as a "notification" (`C38_overwritten`).

Secure channel
* Security blocks of types 0x11 to 0x14 are accepted without MAC in an active session, on both sides; even a KEYSET
  (`C17_forged`, `C17_forged_keyset`, `C18_forged`).
* SCRYPT without CHLNG after boot opens a session with all-zero keys (`C22_no_challenge`); a recorded SCRYPT reopens an old session (`C22_replay`).
* An unsent KEYSET is committed by the CP when the previous reply was an ACK (`C28_unsent`).
* KEEPACTIVE has no effect (`C29_keepactive_no_effect`). ENFORCE_SECURE set at run time leaves a PD online in the clear (`C24_late`).
* A packet with a bad check value, even for another device, ends the PD's session (`C09_bad_packet_ends_session`).
* A CP in installation mode sends its key to whoever knows the default key (`C21_install`); this is by design of the protocol.
* The command MAC of an older session survives a handshake at the PD (`C20_cmac`, harmless).

Sequence numbers, retries, BUSY
* A refused packet moves the PD's counter (`C11_rejected_packet_moves_counter`). A failed CHLNG send skips a number (`C10_skip`).
* BUSY that carries the number of the command leads to the next number (`C12_numbered`). The retry counter is not reset by an answer (`C13_budget`).
* A command that is repeated because no answer came carries the next number, not its own (src/osdp_cp.c:845-897, src/osdp_phy.c:95-104,178). If the command
  was lost the PD sees a gap, refuses it and is given up by the CP (`C69_lost_command`); if the answer was lost the PD takes it for a new command and carries it
  out twice (`C69_lost_answer_clear`) or ends the session (`C69_lost_answer_secure_partial`).
- **C49.** The PD gives up a session after 8 s without a command, the CP does not notice. If the next command is the ABORT of a cancelled transfer, the PD refuses it and the CP goes offline with its own transfer forgotten. The PD still expects the rest of the old file. A later file whose size is what was missing of the old one is written into the old file (which was the only one the application was asked to open), and the CP reports it delivered (`C49_stale`).
- **C71.** `cp_state_change` draws the CP's random number on entering `SC_CHLNG`; `get_next_err_state` keeps that state when it turns from the
  CP's own key to the default key, so the second challenge repeats the number of the first (`C71_reused`). The session keys of a default-key session
  are then a function of a number that was on the wire before.
- **C72.** The receive FIFO is not emptied when a command is sent. A second packet received together with an answer stays there, and if it bears the
  next number it is taken as the answer to the next command, before the PD could say anything (`C72_early`). The address check in `phy_check_packet`
  lets the broadcast address pass in both directions, so that a reply from "address 127" is taken for the reply of the PD polled (`C72_anyone`).
- **C73.** `osdp_phy_decode_packet` reads the security block at fixed offsets without checking that the packet is long enough: of an intact packet
  of six or seven bytes with the security bit it reads bytes left behind by an earlier packet, so that its reaction depends on what was overheard
  (`C73_stale`). Of a reply of another device only the header is skipped; a start byte in the rest begins a packet that swallows the next command
  for this PD, which stays unanswered (`C73_swallowed`; C08 has the case where such a packet is even executed).
- **C74.** A packet with the number of the last command is taken as a repetition, but the PD keeps no copy of its reply: it carries the command out
  again (`C74_clear`: the buzzer sounds twice). In a session a repeated command fails the MAC check and ends the session; but the chain of MACs moves on
  with the replies only, so that a PD that cannot reply (it was told of a receive buffer too small for any reply) carries out a replayed packet of the session
  any number of times (`C74_silent`).
- **C76.** When a PD is commissioned (`SC_USE_SCBKD`), the CP sends its own key in a session of the default key, which is public. `C76_overheard`: for every cipher, a listener computes the key from CHLNG, CCRYPT and KEYSET. The protocol prescribes this; the code does it whenever a PD does not prove knowledge of the key and `OSDP_FLAG_ENFORCE_SECURE` is not set, without being asked (C70), so a device that answers the challenge wrongly gets the key.
- **C77.** `phy_decode_packet` looks for the security block types of CHLNG and SCRYPT (0x11, 0x13) on the CP, too, and with `OSDP_FLAG_INSTALL_MODE` takes a third byte 0 as the wish to use SCBK-D; nothing there or later asks for `OSDP_FLAG_ENFORCE_SECURE`. `C77_tricked`: a CP with both flags challenges for its own key; a device that knows only the default key answers CCRYPT in a block of type 0x11; the CP opens the session with the default key and sends its own key with KEYSET, which the device reads (AES). `C77_pd`: a PD with both flags and its own key likewise opens a session with the default key. Without INSTALL_MODE the property holds (`C77_partial`; for the PD C25).
- **C78.** INSTALL_MODE is cleared by KEYSET only, so that before a key is set any number of sessions with SCBK-D is opened (`C78_twice`). And KEYSET closes the session, but keeps its keys and random numbers, and SCRYPT needs no preceding CHLNG (C22): until the next CHLNG the recorded SCRYPT, sent again, opens the old session of the default key, in which another KEYSET is carried out (`C78_reopened`, AES): whoever overheard the commissioning can replace the PD's new key by their own.
- **C79.** `cp_add_pd` copies the PD objects with `memcpy` and frees the old array, but each object's slab and queue keep addresses inside the freed array. After an addition every command accepted for an earlier PD is written to freed memory, and commands that were waiting cannot be taken out without reading it (`C79_lost`, universal; `C79_dangling`, concrete). Besides, new PDs are numbered from 0 and the locks are forgotten (C45, C46).
- **C80.** `do_command_callback` turns every value other than 0 into NAK(record), positive ones included, and the test `if (ret > 0)` after it in the MFG branch looks at a variable that still holds the error code. So an application can never answer MFG with MFGREP (`C80_no_mfgrep`, for all states, commands and callbacks), although include/osdp.h documents exactly that. For OUT, LED and BUZ negative values give an ACK (C34).
- **C81.** The reply code 0x00 is the value of `REPLY_INVALID`, by which `cp_check_online_response` (src/osdp_cp.c:1016) recognises that there was no reply. So a PD that answers a POLL with the code 0 goes offline although IGN_UNSOLICITED is set (`C81_zero`, for all states; a concrete history in `Sample81.C81_witness`).
- **C82.** `osdp_pd_setup` ends in `osdp_pd_teardown` when it fails: with OSDP_FLAG_CAPTURE_PACKETS and a refused key the capture has not been begun and `assert(cap)` (src/osdp_diag.c:50) aborts (`C82_refused`, for all such records), and without memory for the PD object NULL is dereferenced (`C82_nomem`). A capture file that cannot be written is logged only; the first packet or the teardown then aborts (`C82_unwritable`). `cp_add_pd` frees the new PD array on error but does not end the captures begun for PDs in it (`C82_leak`). Teardown and `osdp_file_register_ops` do not close a file that a transfer has open (`C82_open`).
- **C83.** Holds for whole blocks. `C83_ragged`: another length is rounded up to whole blocks, over the end of the buffer if it is no longer than that; nothing in `osdp_encrypt`/`osdp_decrypt` checks it (with an IV not even an assertion). The callers in osdp_sc.c pad. With no data `AES_CBC_encrypt_buffer` copies `ctx->Iv` onto itself with `memcpy`.
- **C84.** With no data and without OSDP_FLAG_ALLOW_EMPTY_ENCRYPTED_DATA_BLOCK `osdp_decrypt_data` begins its search for the marker at `data[-1]` (src/osdp_sc.c:153-160) and goes backwards over the packet; in a packet it stops at the command id, which is 0x80 for the vendor command and is then overwritten (`C84_before`; `C84_empty_partial` says exactly what happens). The packet is refused in any case. In front of nothing but zeros the search would leave the buffer.
- **C85.** `(float)rnd` rounds the 64 largest values of `rand()` up to 2^31, the quotient is 1 and 256 does not fit a `uint8_t`: undefined behaviour (`C85_undefined`; `C85_defined_partial`: exactly these 64). Evenness holds (`C85_even`). That `rand()` is never seeded by the library, so that the sequence is the same in every run of a program that does not seed it, is outside the property.
- **C86.** The check before the encryption (src/osdp_phy.c:266) compares the padded data alone with `max_len`, leaving out the header in front of it: a packet that is refused afterwards has already been written behind the limit (`C86_beyond`), and with the whole 256-byte buffer allowed, 240 bytes of data are written past its end (`C86_overflow`). No caller builds that much data (this is part of C37/C38); up to there the overrun stays inside the buffer. `C86_refused_partial` gives the bytes that stay.
- **C87.** The data trace of a received packet calls `memmove(pkt->data, data, len)` with whatever length came out (src/osdp_phy.c:694). A packet of ten bytes whose security block claims to have twenty is disregarded without the trace; with it the block moved has (size_t)-17 bytes (`C87_crash`), from one packet sent in the clear. The capture of an unfinished packet asserts that it has at most 256 bytes (`C87_assert`, 255 bytes before the check value; no caller makes them). `C87_received_partial` leaves out packets without room for a command id, nothing else.
- **C89.** src/osdp_file.c:349 gives up when `errors > OSDP_FILE_ERROR_RETRY_MAX` (10), but `errors` is cleared at each status (src/osdp_file.c:120-192) and at the CP incremented only right after that: it never exceeds 1 (`C89_count`), and the limit is dead code (`C89_never`). A PD that answers every fragment with NAK or ACK gets the same fragment for ever (`C89_forever`). Besides, when a read fails the transfer is abandoned without closing the file.
- **C90.** A PD that asks to be polled for the next status (control bit 2) has to send that status as the answer to a POLL. FTSTAT is not among the answers to POLL that src/osdp_cp.c:1020-1031 lets through (unless OSDP_FLAG_IGN_UNSOLICITED is set), so the CP drops the connection (`C90_polled`). All other parts are proved for all histories.
- **C91.** At the CP (`C91_misuse`): an error status after the last fragment closes the file but leaves the transfer in progress (src/osdp_file.c:164-190), so that it is read (and by a cancellation closed) again after the next connection; a failing read forgets the transfer without closing the file (lines 97-104); a file of size 0 is opened and never closed (lines 399-408). At either end `osdp_cp_teardown`/`osdp_pd_teardown` and `osdp_file_register_ops` drop a transfer without closing its file (src/osdp_cp.c:1523, src/osdp_pd.c:1179); these are left out of `C91_pd` and `C91_cp_partial`.
- **C92.** A packet of the session (right MAC) whose security block claims more bytes than the packet has makes `osdp_decrypt_data` run with a negative length (`C92_overlong`; src/osdp_phy.c:555-571 checks neither `pkt->data[0]` nor the length that remains). An empty enciphered block is refused only because the search for the padding marker, which leaves the data, must stop at the control byte at the latest; if the id is 0x80 it is overwritten (`ScMem.C84_before`).
- **C93.** Numbers of 32 bits with the top bit set are put together by `buf[pos++] << 24` of a promoted `int` (src/osdp_cp.c:437, 552; src/osdp_pd.c:509; src/osdp_common.h:101): a shift into the sign bit, undefined in C11 (`C93_undefined`). A PD with serial number 0x80000000 or above, a COMSET with such a baud rate (read before it is checked) and a fragment with such a size or offset get there; the file case needs no more than a FILETRANSFER packet. Likewise `!!buf[pos++] << i` for a 32nd status entry that is not 0 (src/osdp_cp.c:488, 508; `C93_status_partial`). The other models take the value the usual compilers give.
- **C94.** `osdp_crypt_setup` is called from `osdp_sc_setup` only, and that on a CP only (src/osdp_cp.c:1208), while the end of a session calls `osdp_crypt_teardown` on both ends. With mbedtls a PD therefore draws its challenge from a generator that was never seeded, in every handshake, and on a CP the end of the session of one PD frees the cipher object the other PDs go on using (`C94_objects`).
- **C95.** `osdp_file_cmd_stat_decode` accepts a status only in the state OSDP_FILE_INPROG (src/osdp_file.c:133-136), but the status 3 has put the transfer into OSDP_FILE_KEEP_ALIVE. Every answer to an empty fragment, "processed" included, is therefore taken for an error: the CP goes offline, connects again, asks again, and so on without end (`C95_dropped`, `C95_loop`). `osdp_get_file_tx_status` returns an error from then on (`C95_never`), and the transfer cannot be cancelled, since that too needs OSDP_FILE_INPROG.
- **C96.** `PD_FLAG_SC_USE_SCBKD` is set on the PD by a security block of type 0x11 or 0x13 that names the default key, whatever the command and without authentication (src/osdp_phy.c:578-589), and cleared by KEYSET only (src/osdp_pd.c:1044), not by a CHLNG that names the PD's own key (`C96_spoiled`, `C96_asked`). One such packet to a PD in install mode therefore keeps a CP with ENFORCE_SECURE out that has the PD's key (`C96_locked_out`). And a PD that was given no key answers a CHLNG for its own key with one of sixteen zero bytes (`C96_zero_key`).
- **C97.** `osdp_file_cmd_stat_decode` reads `stat.rx_size` and does not use it (src/osdp_file.c:147); the size of a fragment depends on the PD's capabilities only (src/osdp_file.c:97). A PD that wishes for 64 bytes gets 243 (`C97_ignored`, `C97_64`).
- **C98.** Without command callback a file is opened unasked (src/osdp_file.c:224, `C98_unasked`), while every other command is refused in that case. A refused file is not answered at all, because -1 is the value of `OSDP_PD_ERR_WAIT` (`C98_refused`). Once a file is open, `xfer.type` is not compared with the id of the open file, so fragments of any other file are written to it (`C98_mixed`, `C98_other`).
- **C99.** The flag is documented as "PD mode only" (include/osdp.h:82), but `osdp_decrypt_data` heeds it in both modes (src/osdp_sc.c:142) and the CP copies the flags of the application (src/osdp_cp.c:1422). A CP with the flag accepts empty SCS_18 replies (`C99_cp`, `C99_mode`).
- **C100.** `cp_get_online_command` takes the queue of the application first and asks the file module afterwards (src/osdp_cp.c:929-938), so a PD that forbids interleaving still gets the commands of the application between the fragments, and during a delay it asked for (`C100_interrupted`, `C100_led`).
- **C101.** Nothing ends a file transfer when the PD goes offline, and it does not remember that it began in a secure session. Without ENFORCE_SECURE a party without any key can answer a fragment with an unprotected NAK (which takes the CP offline, see C18), then present itself as a PD without the capability for a secure channel; the CP goes on with the same file in the clear (`C101_leak`, `C101_kept`). A PD's request for plain text, on the other hand, is only logged (src/osdp_file.c:77-79).
- **C102.** The queues outlive the session. Without ENFORCE_SECURE one unprotected POLL with sequence number 0 ends the session of a PD (src/osdp_phy.c:439-452) and is answered, in the same exchange, with the first queued event in the clear: a card number read within the session (`C102_pd_leak`). A CP sends a command accepted within a session in the clear after the reconnection forced as in C101, more than five minutes later (`C102_cp_leak`).
- **C103.** Anybody on the line can end a session. At every PD, with or without ENFORCE_SECURE, one unprotected POLL with sequence number 0 does (`C103_pd`, src/osdp_phy.c:439-452). So does noise: the check value is looked at before the address (src/osdp_phy.c:409-436), so one damaged byte in a packet for one PD ends the sessions of all PDs on the bus (`C103_noise`). At a CP an unprotected NAK takes the PD offline for five minutes (`C103_cp`, src/osdp_phy.c:616-624).
- **C104.** A lost answer leads to a repetition (C13, with the shortcomings recorded for C69), a damaged one does not: a packet with a wrong check value is OSDP_ERR_PKT_FMT, which `cp_process_reply` turns into a generic error (src/osdp_cp.c:742-743), for which the PD goes offline at once and for five minutes (`C104_offline`). One flipped bit costs the session and 300 s of service.
- **C105.** `osdp_phy_check_packet` reports a packet of another PD as OSDP_ERR_PKT_CHECK and one with the wrong direction bit as OSDP_ERR_PKT_SKIP, with the log message "Ignoring packet with invalid PD_ADDR.MSB". A PD does ignore the latter, but `cp_process_reply` (src/osdp_cp.c:742-743) treats both as failures. So a late answer of one PD on a shared line takes another PD offline for five minutes (`C105_other`), and so does the echo of the CP's own command (`C105_echo`).
- **C106.** The repetition of a command bears the next sequence number (C69), and bytes received before it are not discarded. An answer that comes after the 200 ms limit is therefore read as an answer to the repetition, has the wrong number, and takes the PD offline for five minutes (`C106_late`, in general `C106_number`).
* 15 line bits across the CRC can go undetected because the CRC is sent low byte first (`C02_frame_burst15_undetected`).
* A CP built with `CONFIG_OSDP_SKIP_MARK_BYTE` that hears a packet with a mark byte keeps `PKT_HAS_MARK` set. Its own next packet is
  built without a mark (src/osdp_phy.c:156), so `osdp_phy_packet_finalize` rejects it ("MARK validation failed", :209-213), and as
  nothing is sent no header arrives to clear the flag: the CP never sends anything again (`C67_mute_forever`).
* A mark byte cut from its packet changes where the search for the next packet starts (`C07_cut_mark_differs`).
* The PD drops only the header of a foreign reply and executes a command embedded in it (`C08_embedded_command_executed`).

Commands, replies, events
* OUT, LED, BUZ: refusal and missing capability are acknowledged (`C34_rejected_acknowledged`, `C34_incapable_acknowledged`).
* Surplus bytes accepted, over-long TEXT executed, malformed fragments unanswered (`C35_*`). ACURXSIZE/PDCAP sizes 1..68 silence a
  device for ever (`C36_valid_command_unanswered`, `C58_*`). A size announced behind an unknown function code is overlooked (`C05_cp_overlooked`).
* Accepted events are lost: untranslatable, unbuildable, repeated POLL, failed send (`C39_*`), ASCII card reads (`C31_ascii`).
* A KEYSET may be taken off the queue and never sent (`C40_dropped`). Command notifications carry 1/0 instead of 0/-1, report unsent
  commands with the previous outcome, and are missing for MFG (`C41_*`). Offline is reported with 1 (`C42_offline`, for all histories).
* COM, PDID and PDCAP replies are acted on whatever the command was (`C44_unasked`). Capabilities of an earlier PD persist (`C32_stale`).
* A report in reply to ID is delivered minutes later (`C57_stale`). An unanswered broadcast spoils the next reply's address (`C59_unanswered_broadcast_spoils_next_reply`).
* Bad command ids, over-long TEXT, wrong KEYSET lengths are accepted by `osdp_cp_send_command` (`C62_*`).

Files
* A repeated fragment is counted twice, for every file (`C50_repeated`, general theorem); header offsets are not checked
  (`C51_outside`); negative status ignored (`C53_ignored`); fragment does not fit in a secure session (`C52_toolarge`);
  cancel followed by keep-alive sends ABORT for ever (`C54_stuck`).

Secure session, sending
* When a reply cannot be built in a secure session (for example a status report with the wrong number of inputs) the NAK sent in its place
  has security block type 0x16 and its reason byte unenciphered (`C64_clear_nak`): `pd_build_reply` picks the type from the length of the
  reply that failed, before it substitutes the NAK (src/osdp_pd.c:917-930).

Several PDs
* `osdp_cp_add_pd` numbers new PDs from 0 and resets the locks: `C45_add`, `C46_starved`, `C46_misnamed`. Channel id 0 gives no exclusion (`C45_zero`).

## 5. Testing the theorems against wrong programs

`seeded/LOG.jsonl` has one line per attempt: the model definition edited, the edit, the claims it breaks and which of the claimed
theorems then fail. An attempt compiles every module between the edited definition and the claims' theorems, keeping going after
errors; a theorem counts as failed when it no longer compiles or rests on a lemma that does not. The field `first_errors` names the
lemmas at which the errors begin.
