{
 "claims": [
  {
   "property": "C01",
   "status": "proved",
   "theorems": [
    "CTng.C01_init_verify_iff",
    "CTng.C01_accepted_was_signed",
    "CTng.C01_signed_is_accepted"
   ],
   "note": "verification of INIT objects is exactly acceptance by the RSA library under the key registered for the id inside the signature"
  },
  {
   "property": "C02",
   "status": "proved",
   "theorems": [
    "CTng.C02_unknown_type_inert"
   ],
   "note": "An object with any other type string is refused by `Verify`; a gossiper that receives it changes nothing except its received-bytes counter."
  },
  {
   "property": "C03",
   "status": "partial",
   "theorems": [
    "CTng.C03_violated_any_key_speaks_for_anyone",
    "CTng.C03_signed_by_embedded_id_partial"
   ],
   "note": "The code does not compare the signature id with Signer or the named entity; the attack is proved for every library, and what does hold is the _partial theorem."
  },
  {
   "property": "C04",
   "status": "partial",
   "theorems": [
    "CTng.C04_violated_replay",
    "CTng.C04_payload_concatenation_bound_partial"
   ],
   "note": "Only the concatenated payload is signed; period and type can be replayed. Proved: payload concatenation is bound."
  },
  {
   "property": "C05",
   "status": "partial",
   "theorems": [
    "CTng.C05_violated_boundaries_not_bound",
    "CTng.C05_fixed_lengths_bound_partial"
   ],
   "note": "The three payload fields are concatenated without separators, so field boundaries are not bound; bound when field lengths are fixed."
  },
  {
   "property": "C06",
   "status": "partial",
   "theorems": [
    "CTng.C06_violated_framing",
    "CTng.C06_two_signatures_exist_partial"
   ],
   "note": "A conflict proof can frame any entity: the signer is not tied to the accused. Proved: two valid signatures over the two claimed statements exist."
  },
  {
   "property": "C07",
   "status": "partial",
   "theorems": [
    "CTng.C07_violated_one_signer_suffices",
    "CTng.C07_aggregate_of_listed_signers_partial"
   ],
   "note": "Signers may be repeated, so one signer suffices. Proved: aggregate of the listed signers."
  },
  {
   "property": "C08",
   "status": "proved",
   "theorems": [
    "CTng.C08_threshold_signing_complete"
   ],
   "note": "Fragments made by at least Threshold (and at least one) registered signers aggregate in any order, the aggregate verifies, and lists exactly the signers."
  },
  {
   "property": "C09",
   "status": "proved",
   "theorems": [
    "CTng.C09_aggregate_result",
    "CTng.C09_aggregate_order_independent"
   ],
   "note": "Aggregation fails exactly with fewer than `threshold` fragments; otherwise the id list is the ascending rearrangement of the fragment ids."
  },
  {
   "property": "C10",
   "status": "proved",
   "theorems": [
    "CTng.C10_rsa_roundtrip",
    "CTng.C10_fragment_roundtrip",
    "CTng.C10_threshold_roundtrip",
    "CTng.C10_rsa_string_injective",
    "CTng.C10_second_text",
    "CTng.C10_rsa_bytes",
    "CTng.C10_fragment_bytes",
    "CTng.C10_threshold_bytes"
   ],
   "note": "The string form of an RSA signature decodes to the signature."
  },
  {
   "property": "C11",
   "status": "proved",
   "theorems": [
    "CTng.C11_held_objects_verify",
    "CTng.C11_saved_payloads_verify"
   ],
   "note": "Whatever the schedule, every held INIT, CON and FULL object verifies."
  },
  {
   "property": "C12",
   "status": "proved",
   "theorems": [
    "CTng.C12_filed_under_own_identity",
    "CTng.C12_fragments_filed_under_own_identity",
    "CTng.C12_payloads_filed_under_own_identity"
   ],
   "note": "A lookup of (period, type, entity) returns only objects with this period, type and entity."
  },
  {
   "property": "C13",
   "status": "proved",
   "theorems": [
    "CTng.C13_fragments_bounded"
   ],
   "note": "Whatever the schedule, at most Threshold fragments are kept for one (period, type, entity)."
  },
  {
   "property": "C14",
   "status": "partial",
   "theorems": [
    "CTng.C14_at_most_once_partial",
    "CTng.C14_exactly_at_threshold_partial",
    "CTng.C14_sequential_at_most_once",
    "CTng.C14_sequential_exactly_at_threshold",
    "CTng.C14_violated_aggregation_across_wipe"
   ],
   "note": "Proved for every schedule without a wipe overlapping the statement and for all sequential histories; with an overlapping wipe a second aggregation is possible (C14_violated_aggregation_across_wipe)."
  },
  {
   "property": "C15",
   "status": "proved",
   "theorems": [
    "CTng.C15_blacklist_permanent"
   ],
   "note": "No schedule of messages, timers and wipes removes an entity from the blacklist."
  },
  {
   "property": "C16",
   "status": "proved",
   "theorems": [
    "CTng.C16_blacklist_needs_evidence"
   ],
   "note": "Whoever is blacklisted is named by a verifying conflict proof or full accusation that the gossiper stored."
  },
  {
   "property": "C17",
   "status": "partial",
   "theorems": [
    "CTng.C17_quarantine_partial",
    "CTng.C17_timers_are_silenced",
    "CTng.C17_violated_large_revocation_served",
    "CTng.C17_violated_fragment_loses_its_name"
   ],
   "note": "what holds: except for two cases below, an object naming a blacklisted entity changes nothing but the count of received bytes: no storage, no blacklist, no timer, no output. Missing: large revocations reach the payload store, and in optimised mode a revocation fragment loses the entity it names (see the two theorems below). fails for large revocations: a verifying REV_INIT naming a blacklisted entity is put into the payload store and then handed out to whoever asks for it. fails in optimised mode: a revocation fragment naming a blacklisted entity, for which no payload is saved, is rewritten to name nobody, passes the blacklist check, is stored and forwarded to every connected gossiper."
  },
  {
   "property": "C18",
   "status": "proved",
   "theorems": [
    "CTng.C18_equivocation_detected"
   ],
   "note": "If a verifying STH_INIT or REV_INIT of one signer, entity and period is held and a second verifying one with a different signature is handled, the entity is blacklisted afterwards, and a verifying conflict proof naming it has been sent to every connected gossiper and to the owner monitor."
  },
  {
   "property": "C19",
   "status": "partial",
   "theorems": [
    "CTng.C19_consistent_entity_not_convicted_partial",
    "CTng.C19_violated_replay_convicts",
    "CTng.C19_violated_respelled"
   ],
   "note": "what holds, under every schedule: if everything posted to the gossiper about an entity is consistent (no conflict proof naming it, one signature pair per statement type and period), the gossiper holds no conflict proof naming it, and if the entity is blacklisted then on a full accusation that was stored. Missing: the adversary can vary the second signature slot or post a fabricated proof (see `C19_violated_replay_convicts` and C15). fails: whoever replays a held STH_INIT or REV_INIT with anything appended in the unused second signature slot gets its honest signer blacklisted. The conflict proof carries the same statement and the same signature twice. fails even without touching the second signature slot: an honest STH_INIT or REV_INIT posted again with the letters of its hexadecimal signature in upper case verifies, is taken for a second statement, and gets its signer blacklisted."
  },
  {
   "property": "C20",
   "status": "proved",
   "theorems": [
    "CTng.C20_redelivery_idempotent"
   ],
   "note": "Handling the same object a second time, at whatever time, changes neither storage nor blacklist nor the armed timers."
  },
  {
   "property": "C21",
   "status": "partial",
   "theorems": [
    "CTng.C21_overtaking_only_partial",
    "CTng.C21_fragments_counted_once_partial",
    "CTng.C21_violated_concurrent_redelivery"
   ],
   "note": "under every schedule, what holds: a signature that is stored for a statement is stored for it a second time before the next wipe only by a handler that was already past the duplicate check at that moment. If no such handler is under way, everything stored for the statement afterwards has another signature, in whatever order the goroutines run and however often the fragment arrives again. for a gossiper that handles one message at a time: kept fragments have pairwise different signatures. fails for concurrent delivery: both handlers pass the duplicate check before either stores, and one gossiper's fragment fills both places of a threshold of 2, which is then aggregated into a FULL object and sent to the owner."
  },
  {
   "property": "C22",
   "status": "partial",
   "theorems": [
    "CTng.C22_violated_without_keys",
    "CTng.C22_violated_one_signer_reaches_threshold",
    "CTng.C22_distinct_signers_partial"
   ],
   "note": "does not hold, without a single key: somebody who has seen one genuine fragment `d` (or waits for the gossiper's own) posts Threshold - 1 fragments with texts that are not even JSON. A fresh gossiper keeps them, decodes each to the zero signature of the empty id, and aggregates them with `d` into an STH_FULL object that verifies, which it holds and passes to its owner. Conditions on the library: the texts do not decode; and adding zero points to a sum of signatures and of keys leaves a verifying signature verifying (herumi/bls sums points). does not hold: whatever the threshold, one registered gossiper `a` can send its own fragment Threshold times with a varying second signature string. A fresh gossiper that receives nothing else aggregates the copies into an STH_FULL that verifies, holds it and passes it to its owner; no fragment it ever kept was made by anybody but `a`."
  },
  {
   "property": "C23",
   "status": "partial",
   "theorems": [
    "CTng.C23_violated_init_always_accepted",
    "CTng.C23_same_init_ignored_partial"
   ],
   "note": "fails: an STH_INIT or REV_INIT that verifies, whose entity is not blacklisted and for which no INIT is held, is stored, forwarded to everybody and scheduled for signing, whatever FULL objects and fragments the gossiper holds. (The code looks FULL objects and fragments up under the INIT type, where they never are.) what holds: an INIT object is ignored if an INIT object with the same signatures is already held."
  },
  {
   "property": "C24",
   "status": "proved",
   "theorems": [
    "CTng.C24_stored_is_broadcast_once",
    "CTng.C24_accusations_are_not_forwarded",
    "CTng.C24_redelivery_is_silent"
   ],
   "note": "If handling an STH_INIT, REV_INIT or CON_INIT stores it (it is held afterwards, and nothing with its signatures was held before), then exactly this happens on the network: every connected gossiper is sent it (or, if it is a large revocation, its notification) once, and the owner monitor once."
  },
  {
   "property": "C25",
   "status": "partial",
   "theorems": [
    "CTng.C25_invalid_inits_dropped_partial",
    "CTng.C25_violated_any_fragment_forwarded",
    "CTng.C25_violated_invalid_full_reaches_owner"
   ],
   "note": "for INIT objects and conflict proofs: an object that fails verification is not stored, arms no timer and is sent to nobody. (An invalid STH_INIT may still lead to a conflict proof being sent; that is another object.) Missing: fragments and FULL objects, see below. fails for fragments: any new fragment, valid or not, naming somebody not blacklisted is stored and forwarded to every connected gossiper as long as it is not the last one missing. Fragments are never verified. fails for FULL objects: one that fails verification, for an entity not blacklisted and with no FULL object held, is passed to the owner monitor, every time it arrives."
  },
  {
   "property": "C26",
   "status": "partial",
   "theorems": [
    "CTng.C26_overtaking_only_partial",
    "CTng.C26_signs_only_verified_and_stored",
    "CTng.C26_blacklisted_not_signed_partial",
    "CTng.C26_violated_signs_blacklisted"
   ],
   "note": "under every schedule, what holds of its second half: a statement of a blacklisted entity is signed only by a handler that had passed its blacklist check before the entity was blacklisted. If no such handler is under way, nothing more is signed for the entity, by no timer, in no later period and in whatever order the goroutines run. for a gossiper that handles one event at a time: whatever an event signs names an entity that was not blacklisted when the event began. fails under concurrency: L1 is already blacklisted when its statement is signed."
  },
  {
   "property": "C27",
   "status": "partial",
   "theorems": [
    "CTng.C27_honest_fragments_yield_full_partial",
    "CTng.C27_violated_by_one_forged_fragment"
   ],
   "note": "what holds: after a round in which fragments by at least Threshold different registered gossipers over one payload were handled one at a time, in any order and mixed with any other messages, timers and requests, the gossiper holds a FULL object for the entity that verifies and was sent to the owner, provided the entity was not blacklisted on other grounds, no fragment kept for the statement is forged, and REV_FRAG payloads are not rewritten by the optimisation mode. Missing: fragments are not verified on receipt, so that one forged fragment spoils the round (see `C27_violated_by_one_forged_fragment`). fails in general: a forged fragment, delivered first and never checked, takes a place; the aggregate does not verify, the fragments of G2 and G3 (threshold 2) arrive in vain, and the gossiper holds no FULL object."
  },
  {
   "property": "C28",
   "status": "proved",
   "theorems": [
    "CTng.C28_wipe_keeps_evidence",
    "CTng.C28_after_wipe_all_is_new"
   ],
   "note": "The periodic task keeps the conflict proofs and the blacklist and empties everything else."
  },
  {
   "property": "C29",
   "status": "partial",
   "theorems": [
    "CTng.C29_overtaking_only_partial",
    "CTng.C29_first_full_wins_partial",
    "CTng.C29_violated_replaced"
   ],
   "note": "under every schedule, what holds: a FULL object is replaced before the next wipe only by a handler that was, when the object was already held, past its own count of FULL objects. If no such handler is under way, nothing that arrives afterwards replaces the object, in whatever order the goroutines run. for a gossiper that handles one event at a time. fails under concurrency: the second handler had already counted zero FULL objects and replaces the first."
  },
  {
   "property": "C30",
   "status": "partial",
   "theorems": [
    "CTng.C30_stripping_transparent_partial",
    "CTng.C30_sender_strips",
    "CTng.C30_sender_keeps_small",
    "CTng.C30_violated_payload_not_held",
    "CTng.C30_violated_receiver_without_optimisation"
   ],
   "note": "what holds: a receiver in optimisation mode that has saved a REV_INIT of the same period with the same payload handles the stripped fragment exactly as it would handle the fragment itself. Missing: receivers that have not saved it or are not in optimisation mode, see the two violations. violated: in optimisation mode, when the REV_INIT is not held, every REV_FRAG (stripped or not) loses its entity, and the list it belongs to stays as it was. violated: a receiver that is not in optimisation mode keeps a stripped fragment as it came, although it holds the REV_INIT; the kept payload is not the one the signature is on."
  },
  {
   "property": "C31",
   "status": "proved",
   "theorems": [
    "CTng.C31_request_answer",
    "CTng.C31_notification_request",
    "CTng.C31_ignored_is_held"
   ],
   "note": "Whatever the schedule, a payload request is answered with the REV_INIT held for the requested period and entity if there is one, and not answered otherwise; the object sent verifies."
  },
  {
   "property": "C32",
   "status": "proved",
   "theorems": [
    "CTng.C32_log_entry",
    "CTng.C32_periodic_logs_then_wipes",
    "CTng.C32_counts_determined",
    "CTng.C32_stores_grow_between_wipes"
   ],
   "note": "Save writes the entry of the current period with the true counts when something is held, leaves the entries of the other periods, and changes nothing when nothing is held."
  },
  {
   "property": "C33",
   "status": "proved",
   "theorems": [
    "CTng.C33_sent_exact",
    "CTng.C33_received_exact"
   ],
   "note": "Whatever the schedule, the sent counter is the sum of the sizes of all bodies posted to other gossipers."
  },
  {
   "property": "C34",
   "status": "partial",
   "theorems": [
    "CTng.C34_aggregation_between_wipes_partial",
    "CTng.C34_sequential_aggregation",
    "CTng.C34_violated_wipe_before_aggregation"
   ],
   "note": "what holds under every schedule: from a moment at which no goroutine is aggregating or wiping, until the next wipe is started, a goroutine that has come to an aggregation does not panic there. Missing: aggregations overtaken by a wipe, see `C34_violated_wipe_before_aggregation`. violated: when the wipe overtakes a timer goroutine that is about to aggregate, the aggregation panics and ends the process."
  },
  {
   "property": "C35",
   "status": "proved",
   "theorems": [
    "CTng.C35_uninterrupted_handler_is_sequential",
    "CTng.C35_uninterrupted_timer_is_sequential",
    "CTng.C35_sequential_histories_are_schedules",
    "CTng.C35_serial_networks_are_networks"
   ],
   "note": "In any state with any other goroutines pending, an arriving request whose handler is not interrupted has exactly the effect of the sequential handler; the other goroutines are untouched."
  },
  {
   "property": "C36",
   "status": "partial",
   "theorems": [
    "CTng.C36_overtaking_only_partial",
    "CTng.C36_violated_concurrent_equivocation",
    "CTng.C36_sequential_equivocation_partial"
   ],
   "note": "under every schedule, what holds: equivocation is missed only if the handler of the second tree head looks for the first one before it is stored or after it is gone. If the first tree head is held while the handler of the second has not made its check yet, and stays held until the log is blacklisted, then the log is blacklisted when the handlers have finished, in whatever order the goroutines ran and whatever else arrived. fails: both handlers pass the equivocation check before either stores. Both run to the end, the second statement replaces the first, both were sent to the owner and nobody is blacklisted. when one handler finishes before the other begins, in either order (take `g1` and `g2` exchanged)."
  },
  {
   "property": "C37",
   "status": "proved",
   "theorems": [
    "CTng.C37_conflict_proofs_reach_everyone",
    "CTng.C37_blacklists_agree"
   ],
   "note": "In a fully connected network of gossipers with the same keys, whatever is posted from outside, in whatever order messages arrive and goroutines, timers and wipes run: once nothing is under way, if a running gossiper holds a conflict proof against an entity then every running gossiper has blacklisted the entity."
  },
  {
   "property": "C38",
   "status": "proved",
   "theorems": [
    "CTng.C38_statements_flood",
    "CTng.C38_revocations_flood_unoptimised",
    "CTng.C38_posted_statements_flood"
   ],
   "note": "In a fully connected network of gossipers with the same keys, between wipes, whatever is posted from outside and in whatever order messages arrive and goroutines and timers run: once nothing is under way, if a running gossiper holds an STH for a period and entity then every running gossiper holds an STH for that period and entity or has blacklisted the entity."
  },
  {
   "property": "C39",
   "status": "partial",
   "theorems": [
    "CTng.C39_violated_no_check",
    "CTng.C39_trusting_gossiper_partial",
    "CTng.C39_sent_verified_partial"
   ],
   "note": "fails: whatever object of these types the gossiper's port receives is kept, without any check. if the gossiper's port receives verified objects only: then everything kept verifies (the answers to the monitor's own queries are verified by the monitor). Missing for the full property: the monitor's own check. for what leaves the monitor: everything it posts to its gossiper verifies. Missing for the full property: what it keeps."
  },
  {
   "property": "C40",
   "status": "partial",
   "theorems": [
    "CTng.C40_read_your_writes_partial",
    "CTng.C40_violated_other_types",
    "CTng.C40_second_delivery_ignored",
    "CTng.C40_numbers"
   ],
   "note": "for the six types the monitor handles: reading an id gives the object stored last under it, and storing affects no other id. Missing for the full property: objects of other types, see the next theorem. fails for the remaining types (accusations, fragments, unknown): `StoreObject` files them in the temporary storage, where `GetObject` never looks."
  },
  {
   "property": "C41",
   "status": "partial",
   "theorems": [
    "CTng.C41_every_schedule_partial",
    "CTng.C41_never_dropped_partial",
    "CTng.C41_same_proof_kept_partial",
    "CTng.C41_violated_replaced"
   ],
   "note": "for handlers, queries, timers and ends of periods in any order of their single steps: once the monitor holds a proof under an id it holds one under that id for ever. Missing for the full property: the very same proof, see `C41_violated_replaced`. Once the monitor holds a proof under an id it holds one under that id for ever: through every message, query, timer and period end. The very same proof is kept as long as no different object with the same id is delivered. Missing for the full property: such deliveries, see the next theorem. fails for the proof itself: any other object with the same id, valid or not, posted to the gossiper's port replaces a conflict proof (an accusation proof likewise)."
  },
  {
   "property": "C42",
   "status": "proved",
   "theorems": [
    "CTng.C42_wipe_exact"
   ],
   "note": "The wipe keeps exactly the threshold-signed objects and recent proofs of the current period, empties the temporary storage and leaves the proof storages alone."
  },
  {
   "property": "C43",
   "status": "proved",
   "theorems": [
    "CTng.C43_update_exact"
   ],
   "note": "The update written at the end of a period lists exactly once every threshold-signed tree head and revocation and every recent proof the monitor then holds, and nothing else; what it then holds is what it held before, of the current period, minus the tree heads and revocations excluded by a conflict proof filed under period \"0\"."
  },
  {
   "property": "C44",
   "status": "partial",
   "theorems": [
    "CTng.C44_excluded_partial",
    "CTng.C44_violated_real_proofs"
   ],
   "note": "for conflict proofs filed under period \"0\": the update has no tree head and no revocation of the entity. Missing for the full property: conflict proofs with any other period, which are all that gossipers make (next theorem). fails for every conflict proof a gossiper makes (its period is the minute at which the conflict was found, never \"0\"): such proofs exclude nothing from the update."
  },
  {
   "property": "C45",
   "status": "proved",
   "theorems": [
    "CTng.C45_accusation_justified",
    "CTng.C45_silence_is_accused",
    "CTng.C45_bad_answer_starts_wait"
   ],
   "note": "When a waiting time ends and the monitor posts something, it is one accusation, of the entity waited for; it verifies at everyone who knows the monitor's key; since the last period end the gossiper delivered no statement of the entity for the current period, and it never delivered an accusation proof for the current period nor a conflict proof (filed under \"0\") against it."
  },
  {
   "property": "C46",
   "status": "partial",
   "theorems": [
    "CTng.C46_delivered_not_accused_partial",
    "CTng.C46_from_minute_ten_partial",
    "CTng.C46_answered_not_waited_for_partial",
    "CTng.C46_violated_first_ten_minutes"
   ],
   "note": "when the statement carries the period string of the clock: an entity whose statement for the current period was delivered since the last period end is not accused. Missing for the full property: the loggers and CAs of the project write the minute without a leading zero, see the next theorem. from the tenth minute of the hour: a statement for the current minute as the loggers and CAs write it protects the entity. an entity whose own answer verifies is not put on the waiting list. fails in the first ten minutes of every hour: a monitor that failed to reach an entity but holds, from its gossiper, the very statement for the current minute in the notation of the loggers and CAs, accuses it."
  },
  {
   "property": "C47",
   "status": "proved",
   "theorems": [
    "CTng.C47_srh_iff",
    "CTng.C47_srh_was_signed"
   ],
   "note": "`VerifySRH` accepts exactly when the SRH decodes to a signature that verifies, under the key registered for the id inside it, over period, known vector (the delta itself when none is known) and delta."
  },
  {
   "property": "C48",
   "status": "partial",
   "theorems": [
    "CTng.C48_client_first_delta_partial",
    "CTng.C48_violated_client",
    "CTng.C48_first_delta_partial",
    "CTng.C48_violated_later_deltas_lost",
    "CTng.C48_violated_union"
   ],
   "note": "at the client, the part that holds: after an accepted update the vector of a CA is the one known before, or the first delta of this CA in the update. Missing: the later ones. is false at the client: once it has a vector of a CA no update changes it, in any history of updates. the part that holds at the monitor: over every history, the vector of a CA is the first delta that came into effect. So it has no bit that was not published, and it has exactly the bits of the union as long as later deltas bring none that the first did not have. Missing: `C48_violated_later_deltas_lost`. is false: once a CA has a vector, no later delta of it has any effect: a published bit that the vector does not have is lost, in every later history."
  },
  {
   "property": "C49",
   "status": "partial",
   "theorems": [
    "CTng.C49_violated_never_again",
    "CTng.C49_violated_blocks",
    "CTng.C49_violated_databases_changed",
    "CTng.C49_only_checked_applied_partial"
   ],
   "note": "is false: after one update that is not accepted (rejected, or panicked and recovered) no update is ever accepted again, whatever the client is sent, with verification on or off. is false: when a revocation is rejected, every later call waits for the lock and does nothing else. is false: a rejected update leaves the databases changed. If its first revocation passes and is the first one of that CA, the client keeps the delta though the second revocation makes it reject the update. what holds: whatever the outcome, only objects that passed entered the databases, namely the first ones of each list, and everything older is treated as by an accepted update. Missing: see the `violated` theorems."
  },
  {
   "property": "C50",
   "status": "proved",
   "theorems": [
    "CTng.C50_accepted_iff",
    "CTng.C50_accepted_was_verified"
   ],
   "note": "`HandleUpdate` returns true exactly when no lock is taken, every object verifies, every revocation passes `VerifySRH` against the vectors known when its turn comes and every tree head can be read; the databases then are the old ones with everything in the update applied."
  },
  {
   "property": "C51",
   "status": "partial",
   "theorems": [
    "CTng.C51_certificate_iff_partial",
    "CTng.C51_accepted_partial",
    "CTng.C51_outside_vector_partial",
    "CTng.C51_violated_no_vector",
    "CTng.C51_violated_bad_entry_panics"
   ],
   "note": "for a client that knows a vector of the issuer and no panic in the signature library: the certificate is accepted exactly when one of its entries is good and its bit is not set; otherwise it is rejected. Missing for the full property: the two cases in which the call panics. soundness without conditions: an accepted certificate has a good entry, no entry panics, the vector of its issuer is known and its bit is not set. positions outside the vector are not revoked. If the id of a certificate is not below the length of the vector of its issuer, it is accepted exactly when one of its entries is good, whatever is stored behind the vector's end. is false: a certificate with a good entry from a CA of which no revocation was seen yet (so it is not revoked) is not accepted: the call panics. is false: one entry whose verification panics brings the call down, whatever the other entries are."
  },
  {
   "property": "C52",
   "status": "partial",
   "theorems": [
    "CTng.C52_first_delta_effective_partial",
    "CTng.C52_violated_later_revocation"
   ],
   "note": "the part that holds: a bit of the client's vector is effective forever, whatever updates follow; in particular the bits of the first delta of a CA. Missing: `C52_violated_later_revocation`. is false: if the client has a vector of the CA without bit `r`, then after any history of updates, accepted ones with bit `r` included, it accepts the revoked certificate as long as one entry is good."
  },
  {
   "property": "C53",
   "status": "partial",
   "theorems": [
    "CTng.C53_named_signer_partial",
    "CTng.C53_violated_rename",
    "CTng.C53_violated_accepted"
   ],
   "note": "the part that holds: an entry that names in its `Signer` field a logger with a proof never counts: a certificate whose entries all do so is rejected. Missing: the field is not signed. is false: an entry that was good before there was a proof against its logger is good again once its unsigned `Signer` field names anyone without a proof. is false for whole certificates: a certificate that carries such an entry is accepted by a client that has a proof against the logger who made the tree head."
  },
  {
   "property": "C54",
   "status": "proved",
   "theorems": [
    "CTng.C54_ids_consecutive",
    "CTng.C54_ids_unique",
    "CTng.C54_root_shares_first_leaf_id"
   ],
   "note": "In every history of a CA the revocation ids in the leaf certificates it sent to the loggers, in order of issuing and over all rounds, are 1, 2, 3, ... (up to the range of a 64 bit counter)."
  },
  {
   "property": "C55",
   "status": "proved",
   "theorems": [
    "CTng.C55_bits_exact",
    "CTng.C55_monotone",
    "CTng.C55_history_exact"
   ],
   "note": "After any sequence of operations on a fresh vector, the bits set are exactly the positions named by some operation: nothing else is set, and nothing is ever cleared."
  },
  {
   "property": "C56",
   "status": "partial",
   "theorems": [
    "CTng.C56_first_period_partial",
    "CTng.C56_later_periods_partial",
    "CTng.C56_violated_after_first_period"
   ],
   "note": "first period: the published delta applied to the empty vector gives the CA's vector. later periods: the published delta applied to the vector of the previous period gives the new one exactly when nothing was revoked in between. Missing for the full property: any revocation after the first period. fails for every CA from the second period on: a certificate revoked then is missing from the published delta and never appears in one, although the CA's own vector (and the hash it signs) has it. `CRV_pre_update` is set to the same pointer as `CRV_current` (CA/server.go:423), so the two no longer differ."
  },
  {
   "property": "C57",
   "status": "partial",
   "theorems": [
    "CTng.C57_first_period_partial",
    "CTng.C57_nothing_new_partial",
    "CTng.C57_violated_after_new_revocation",
    "CTng.C57_violated_late_joiner",
    "CTng.C57_payload_bytes_partial",
    "CTng.C57_first_period_bytes_partial",
    "CTng.C57_nothing_new_bytes_partial"
   ],
   "note": "first period: the revocation a CA publishes at the end of its first period verifies and passes `VerifySRH` at everyone who knows no vector of the CA. later periods without a new revocation: the published revocation verifies and passes. is false: as soon as an honest CA revokes a certificate after its first period, its revocation no longer passes `VerifySRH` at the monitors that have the vector of the first period (or the hash collides on the bytes hashed): the honest CA is then accused as if it had not answered. is false for whoever joins after the first period: with no vector known, every revocation of a CA that has ever revoked a certificate fails (or the hash collides on the bytes hashed). the payload of a revocation: its JSON decodes to it. Missing: strings that are not ASCII, and what is made of it, which are the following theorems."
  },
  {
   "property": "C58",
   "status": "proved",
   "theorems": [
    "CTng.C58_honest_ca",
    "CTng.C58_misbehaving_ca",
    "CTng.C58_zero_interval_panics",
    "CTng.C58_honest_logger",
    "CTng.C58_misbehaving_logger"
   ],
   "note": "honest CA: whatever happens in between (other requests, issuing, messages, revocations, ends of other minutes' periods), two requests in the same minute get the same object, the one stored for that minute."
  },
  {
   "property": "C59",
   "status": "partial",
   "theorems": [
    "CTng.C59_ca_partial",
    "CTng.C59_violated_ca_minute_zero",
    "CTng.C59_logger_partial",
    "CTng.C59_violated_logger_minute_zero"
   ],
   "note": "for the CA, minutes 0 to 58: the revocation built at the end of a minute, labelled with the next minute, is what an honest CA answers in that minute. Missing for the full property: the wrap from minute 59 to minute 0. fails in minute 0: whatever happened before, an honest CA answers with an empty object, since the revocation for that minute was filed under \"60\". for the logger, minutes 0 to 58: the tree head built at the end of a minute over the pool of that minute is what an honest logger answers in the next. Missing for the full property: the wrap from minute 59 to minute 0. fails in minute 0: whatever happened before, an honest logger answers with an empty object."
  },
  {
   "property": "C60",
   "status": "partial",
   "theorems": [
    "CTng.C60_updates_partial",
    "CTng.C60_added_iff_partial",
    "CTng.C60_violated_without_extension",
    "CTng.C60_ca_pool_partial",
    "CTng.C60_bytes_partial"
   ],
   "note": "for certificates with a CTng extension: after any sequence of updates, the id is unchanged, the earlier entries are kept in order with new ones appended in order of arrival, every update has an entry with its signer, and there is at most one entry per signer if there was before. One update: added exactly when no entry has the same signer. fails for a certificate without the extension: the entry is lost (only existing extensions are rewritten). over the histories of a CA: in whatever order tree heads and proofs arrive, repeated or not, every certificate in the pool carries an extension with at most one entry per tree-head signer. the bytes of the extension: whatever the entries, the JSON in its OCTET STRING decodes to the extension. Missing: extensions with strings that are not ASCII, and the updates, which are `C60_updates_partial`."
  },
  {
   "property": "C61",
   "status": "proved",
   "theorems": [
    "CTng.C61_logger_proofs_verify",
    "CTng.C61_proofs_complete",
    "CTng.C61_proof_depth"
   ],
   "note": "Every proof of inclusion a logger builds verifies for its certificate against the root it signs, names the certificate's key id and issuer, and the signed tree head carries that root and the number of certificates."
  },
  {
   "property": "C62",
   "status": "partial",
   "theorems": [
    "CTng.C62_proofs_sound",
    "CTng.C62_violated_without_depth_check"
   ],
   "note": "The depth condition of C62 is needed, and `VerifyPOI` does not check it: leaves and inner nodes are hashed alike, so an inner node of every four-block tree verifies as if it were a logged block."
  },
  {
   "property": "C63",
   "status": "partial",
   "theorems": [
    "CTng.C63_violated_same_subject",
    "CTng.C63_root_and_size_bind_partial",
    "CTng.C63_proof_binds_block_partial",
    "CTng.C63_violated_last_block_repeated",
    "CTng.C63_violated_no_domain_separation"
   ],
   "note": "fails on certificates: a proof of inclusion verifies for every certificate with the same subject, whatever its key, issuer or revocation id, since only the subject is hashed (crypto/MerkleTree.go:14-20). what holds: the root together with the number of blocks binds the blocks. Two lists of the same length with the same root are equal, or the two constructions exhibit a collision. Missing: lists of different lengths (violated below), and what a block says about its certificate (only the subject, see `C63_violated_same_subject`). what holds: one proof does not verify against one root for two different blocks, or verification exhibits a collision. violated, for every hash: an odd list of at least three blocks has the same root as the list with its last block repeated. The root does not bind the number of certificates."
  },
  {
   "property": "C64",
   "status": "partial",
   "theorems": [
    "CTng.C64_round_iff_two_partial",
    "CTng.C64_violated_few_precerts",
    "CTng.C64_violated_idle_round"
   ],
   "note": "what holds: after any history, the end of a period succeeds exactly when at least two different pre-certificates are in the pool. Missing for the full property: periods with none or one. fails: a logger that received no pre-certificate or one dies at the end of the period, in any state. fails: so does a logger that just finished a round, if nothing arrives in the next one."
  },
  {
   "property": "C65",
   "status": "partial",
   "theorems": [
    "CTng.C65_violated_no_check",
    "CTng.C65_violated_signature_forgotten",
    "CTng.C65_violated_bad_body_kills",
    "CTng.C65_verifyprecert_partial",
    "CTng.C65_accepted_was_issued_partial"
   ],
   "note": "fails: whatever the configuration, a parseable certificate from anyone enters an empty log; issuer and signature are not looked at. fails for good: what a logger keeps does not depend on the signature, the DER bytes, the issuer's DER name and key id or the extensions of what was sent to it. Two bodies that parse to certificates with the same subject, issuer common name, serial number, key, key id and CA flag leave the same logger in the same state, so that it cannot check later who signed either. A request body that does not parse ends the logger (`log.Fatalf`). what the unused `Verifyprecert` would guarantee: it accepts exactly the certificates whose issuer is on the list and whose signature is valid under the key registered for the issuer. Missing: the logger never calls it. With genuine keys, a certificate it accepts was signed with the private key of a CA on the list."
  },
  {
   "property": "C66",
   "status": "proved",
   "theorems": [
    "CTng.C66_pool_refines_entries",
    "CTng.C66_first_wins"
   ],
   "note": "every sequence of adds and updates runs without an out-of-range access, leaves all indices valid, and the pool behaves as the entry list: lookup by key id gives the first certificate added with that key id, or what replaced it."
  },
  {
   "property": "C67",
   "status": "partial",
   "theorems": [
    "CTng.C67_pool_contents_partial",
    "CTng.C67_parsed_certificates_partial",
    "CTng.C67_subjects_partial",
    "CTng.C67_violated_same_subject",
    "CTng.C67_violated_two_CAs"
   ],
   "note": "exactly what the pool keeps: of every added certificate the first one with its subject and its DER bytes. what holds: if the added certificates were parsed from DER (equal bytes mean equal certificates), the pool contains exactly the added certificates, each once. Missing: certificates without DER bytes, which is what loggers and CAs add (violated below). what holds of every history of adds: no subject is lost. The subjects the pool lists are exactly those of the added certificates, also of the ones it did not keep, and in number they are the certificates kept. violated: two different pre-certificates (as stored: without DER bytes) with the same subject count as equal, in every pool history: once one is in the pool, the other is dropped. The finding behind C67: the first certificates of two CAs have the same dummy subject, so a logger keeps only one."
  },
  {
   "property": "C68",
   "status": "proved",
   "theorems": [
    "CTng.C68_ports_match",
    "CTng.C68_addresses_unique",
    "CTng.C68_bound_is_sharp"
   ],
   "note": "every generated process listens on the port its own URL names, and a monitor on the port its gossiper's URL names."
  },
  {
   "property": "C69",
   "status": "partial",
   "theorems": [
    "CTng.C69_lists_complete",
    "CTng.C69_gossipers_complete",
    "CTng.C69_ca_loggers_partial",
    "CTng.C69_violated_same_logger",
    "CTng.C69_violated_no_loggers"
   ],
   "note": "what holds for CAs: CA `i` is given two different generated loggers, unless `i` modulo the number of loggers is the middle of the logger list. is false for CAs in general: with an odd number 2k+1 of loggers, CA number k is given the same logger twice. Without loggers the generation of CA configurations panics."
  },
  {
   "property": "C70",
   "status": "partial",
   "theorems": [
    "CTng.C70_public_configs_partial",
    "CTng.C70_monitor_private_partial",
    "CTng.C70_logger_private_partial",
    "CTng.C70_ca_private_partial",
    "CTng.C70_violated_ca_loggers",
    "CTng.C70_violated_logger_cas",
    "CTng.C70_gossiper_private_partial",
    "CTng.C70_violated_owner",
    "CTng.C70_template_owner_partial"
   ],
   "note": "for public configurations: every listed entity gets its own IP and keeps its port. for the private configuration of monitor `i`: every address is right. for the private configuration of logger `i`: signer, monitors and gossipers are right; the list of CAs keeps its local URLs. for the private configuration of CA `i`: signer, monitors and gossipers are right; each logger keeps its port but gets the IP of logger number `i`. is false: whatever the IP table, a CA whose logger runs on another IP than logger number `i` is sent elsewhere. is false for loggers: after the mapping none of the CAs' addresses is on the logger's list (unless a CA's IP is \"localhost\"). for the private configuration of gossiper `i`: every peer gets its own IP and keeps its port; the owner keeps its port and gets the IP of the gossiper."
  },
  {
   "property": "C71",
   "status": "proved",
   "theorems": [
    "CTng.C71_config_roundtrip_json",
    "CTng.C71_config_roundtrip",
    "CTng.C71_bad_key_refused"
   ],
   "note": "A configuration written by `SaveCryptoFiles`, as JSON, is read back."
  },
  {
   "property": "C72",
   "status": "partial",
   "theorems": [
    "CTng.C72_period_two_digits",
    "CTng.C72_period_identifies_minute",
    "CTng.C72_numeric_period",
    "CTng.C72_notations_agree_partial",
    "CTng.C72_violated_first_ten_minutes",
    "CTng.C72_waiting_time"
   ],
   "note": "second half, what holds: the two notations of a minute agree exactly from minute 10 on. Missing: minutes 0-9. violated: in the first ten minutes of every hour the CA's period string is not the one monitors and gossipers use."
  },
  {
   "property": "C73",
   "status": "partial",
   "theorems": [
    "CTng.C73_bits_of_bytes",
    "CTng.C73_bytes_roundtrip_padded_partial",
    "CTng.C73_bytes_roundtrip_partial",
    "CTng.C73_bits_roundtrip_partial",
    "CTng.C73_violated_length",
    "CTng.C73_violated_low_blocks_skipped"
   ],
   "note": "what holds: bytes to bits to bytes gives the same bytes followed by the zero bytes that fill the last 64-bit block, provided the iterator visits every block. what holds: byte strings whose length is a multiple of eight round-trip exactly. what holds: bits to bytes to bits gives the same blocks, provided the iterator visits every block. violated: whatever blocks the iterator visits, the bytes produced come in eights, so no byte string of another length survives the round trip. violated in the other direction: if the iterator starts at the lowest non-empty block (as the library does), the bits move down."
  },
  {
   "property": "C74",
   "status": "proved",
   "theorems": [
    "CTng.C74_positions",
    "CTng.C74_diverges",
    "CTng.C74_terminates",
    "CTng.C74_latency_in_range"
   ],
   "note": "for every random source below `totalBits` on which it terminates, `GenerateRandomBitPositions` returns exactly the requested number of pairwise different positions below the total."
  },
  {
   "property": "C75",
   "status": "partial",
   "theorems": [
    "CTng.C75_all_proofs_sent_partial",
    "CTng.C75_violated_stops_at_mismatch",
    "CTng.C75_violated_by_stranger"
   ],
   "note": "when no two logged certificates share a key id: at the end of a period the logger posts to the issuer of every logged certificate a proof of inclusion for that certificate's key id which verifies for it, and posts nothing else. Missing for the full property: repeated or empty key ids. fails when a key id repeats: the proof of the later certificate is checked against the earlier one; when that check fails, no later proof is sent either (Logger/server.go:172-175 returns from the loop). A stranger submits a certificate with the public key of an earlier one: the proofs of all later certificates are lost."
  },
  {
   "property": "C76",
   "status": "proved",
   "theorems": [
    "CTng.C76_tree_heads_verify",
    "CTng.C76_revocations_verify"
   ],
   "note": "Every tree head a logger builds verifies at everyone who holds the logger's public key under its name."
  },
  {
   "property": "C79",
   "status": "partial",
   "theorems": [
    "CTng.C79_named_key_partial",
    "CTng.C79_violated_other_key"
   ],
   "note": "the SRH of a CA names the key it is checked with: C79 holds for strings that name the CA. is false: any other registered party, for instance a logger, can sign a revocation hash of a CA."
  },
  {
   "property": "C81",
   "status": "partial",
   "theorems": [
    "CTng.C81_restart_partial",
    "CTng.C81_violated_proofs_lost"
   ],
   "note": "what holds: after saving and restarting the client has the same tree heads and vectors. Missing: the proofs of misbehaviour. is false: whatever was saved, a restarted client has no proof of misbehaviour; a logger entry refused before because of a proof is judged as if there were none."
  },
  {
   "property": "C82",
   "status": "partial",
   "theorems": [
    "CTng.C82_violated_any_object_is_a_proof",
    "CTng.C82_honest_monitors_partial"
   ],
   "note": "is false: every object that verifies, for instance a tree head of an honest logger, is taken as a proof of misbehaviour of the entity it names when a monitor files it under the proofs; every certificate relying on entries of that logger is then rejected. if the monitors file only accusation and conflict proofs under the proofs: then everyone in the client's proof database is named by such a proof that verified. Missing: the client does not look at the type."
  },
  {
   "property": "C83",
   "status": "partial",
   "theorems": [
    "CTng.C83_violated_unendorsed",
    "CTng.C83_honest_monitors_partial"
   ],
   "note": "is false: every tree head that verifies as any type of object, in particular one signed by its logger alone and never seen by a gossiper, is recorded as the root for its period, over the one recorded before. if the monitors file only FULL objects under the tree heads: then every recorded root comes from an object whose aggregate signature verified. (What that says about the number of signers: C07.) Missing: the client does not look at the type."
  },
  {
   "property": "C84",
   "status": "partial",
   "theorems": [
    "CTng.C84_violated_other_key",
    "CTng.C84_subject_was_logged_partial",
    "CTng.C84_accepted_subject_logged_partial"
   ],
   "note": "is false: whoever owns an accepted certificate can put any key, any serial number and any signature into it, as long as subject, issuer name and extension stay: nothing else is looked at. what holds: if the recorded root is the one of a tree over `blocks` and the proof has the length proofs of that tree have, the subject of the accepted certificate is in the tree (or the hash collides on the bytes hashed). Missing: anything but the subject, and a check of the proof's length (C62). from the decision: if a client accepts a certificate, and among its entries those whose tree head the client has a root for name a tree with that root and carry proofs of that tree's depth, then the subject of the certificate is a leaf of one of these trees, or a hash collision is exhibited."
  },
  {
   "property": "C85",
   "status": "partial",
   "theorems": [
    "CTng.C85_two_digit_minutes_partial",
    "CTng.C85_violated_padding",
    "CTng.C85_violated_update_not_accepted"
   ],
   "note": "periods 10 to 59: the revocation an honest CA made for the minute in which the gossipers aggregate it passes `VerifySRH` at a client that has the CA's vector (or none, for the first one). is false for the minutes 0 to 9: the gossipers put the zero-padded minute into the FULL object, the CA signed the plain one (and \"60\" for minute 0), so `VerifySRH` fails whatever minute the clock shows (or the hash collides on the bytes hashed). the consequence: a client that gets such a revocation in an update does not accept the update, and by C49 accepts no update any more."
  },
  {
   "property": "C77",
   "status": "partial",
   "theorems": [
    "CTng.C77_accepted_partial",
    "CTng.C77_violated_padding"
   ],
   "note": "for the minutes 10 to 59: an honest CA issues certificate `y` at the start of a round; an honest logger logs it and ends its period in minute `t.minute`; its tree head and then its proof for `y` reach the CA among any other messages, none of which pretends to be from this logger; the CA signs. Then one signed certificate keeps subject and key id of `y` and is accepted by every client that knows the logger's key, recorded this logger's root for the next minute, has no proof of misbehaviour of the logger and has a vector of the CA in which `y` is not revoked. Missing: the minutes 0 to 9 (`C77_violated_padding`). is false for ten minutes of every hour: the tree head embedded in a certificate names its period without padding (\"5\", or \"60\"), clients record roots under the period of the threshold-signed object, which is a clock string (\"05\", \"00\")."
  },
  {
   "property": "C86",
   "status": "partial",
   "theorems": [
    "CTng.C86_violated_lost_tree_head",
    "CTng.C86_violated_forged_proof",
    "CTng.C86_tree_heads_verified_partial"
   ],
   "note": "is false when a tree head is lost: if the CA holds no tree head of a logger when the logger's proof `p` arrives (the POST of the tree head failed, which the logger only prints), the CA embeds `p` under the zero object, keeps it whatever arrives later, and after signing no client counts that entry. is false: the CA embeds any proof it is sent. If someone posts a proof `q` without content in the name of a logger whose tree head the CA holds, before the logger's own proof arrives, then whatever is received afterwards (including the logger's proof) the certificate carries `q` and no other entry of that logger, and after signing no client counts an entry of that logger as good. what the CA checks: in every history, an embedded tree head either verified or is the zero object (a proof that arrived before the tree head of its logger)."
  },
  {
   "property": "C87",
   "status": "partial",
   "theorems": [
    "CTng.C87_entities_interoperate",
    "CTng.C87_deployment_interoperates_partial",
    "CTng.C87_violated_one_gossiper"
   ],
   "note": "what holds: a generated deployment of two to a thousand gossipers and monitors and at least one logger gives every entity its own id and keys with which everybody understands everybody. With one gossiper the generation of threshold keys fails and the failure is ignored: no key file holds any public key for fragments, and the gossiper's secret is the zero value."
  },
  {
   "property": "C88",
   "status": "proved",
   "theorems": [
    "CTng.C88_verify_only_same_verdict",
    "CTng.C88_basic_rejects",
    "CTng.C88_basic_signs"
   ],
   "note": "a client that loads the verify-only form of a saved configuration reaches the same verdict on every object as its owner does, and holds neither of the two secret keys."
  },
  {
   "property": "C89",
   "status": "proved",
   "theorems": [
    "CTng.C89_mapped_deployment_interoperates",
    "CTng.C89_addresses_unique"
   ],
   "note": "after the mapping of a generated deployment, every entity's id is its address (its IP and its port) and the key files still fit together."
  },
  {
   "property": "C90",
   "status": "partial",
   "theorems": [
    "CTng.C90_revocations_of_any_size_flood_partial",
    "CTng.C90_violated_chunked",
    "CTng.C90_violated_unnamed_copy"
   ],
   "note": "in part. In a fully connected network of gossipers with the same keys that send under their own addresses, from the beginning of a round and between wipes, whatever else is posted from outside and in whatever order messages arrive and goroutines and timers run: once nothing is under way, if a running gossiper holds a revocation update for a period and entity then every running gossiper holds one for that period and entity or has blacklisted the entity. The update may be of any size: beyond the threshold it travels by notification, request and answer. Missing: outside posts of such updates must name a signer and have a content length over the threshold if the object has; the violations show that neither can be dropped."
  },
  {
   "property": "C91",
   "status": "partial",
   "theorems": [
    "CTng.C91_distinct_fragments_partial",
    "CTng.C91_violated_by_default_optimisation",
    "CTng.C91_optimised_in_order_partial",
    "CTng.C91_statements_become_full_partial",
    "CTng.C91_violated_by_concurrent_duplicates"
   ],
   "note": "for concurrent gossipers, what holds: with all goroutines, timers, messages and posts from outside interleaved in any way, in a round in which nothing stands against the statement and at whose end nothing is under way, the timers have run, nobody running has blacklisted the entity and at least T gossipers are running: if no running gossiper has counted a fragment twice, and one running gossiper holds the STH or revocation update, then every running gossiper holds a FULL object with its payload, which verifies and was sent to the gossiper's owner. Missing: runs in which a fragment is counted twice, for which the claim fails (`C91_violated_by_concurrent_duplicates`); revocations in the optimised mode, where it fails even so (`C91_violated_by_default_optimisation`)."
  },
  {
   "property": "C92",
   "status": "partial",
   "theorems": [
    "CTng.C92_distinct_fragments_partial",
    "CTng.C92_accusations_blacklist_partial",
    "CTng.C92_violated_by_concurrent_duplicates",
    "CTng.C92_posted_accusations_partial"
   ],
   "note": "for concurrent gossipers, what holds: under the same conditions on the network, in a round in which all accusations of an entity carry the same payload, no fragment is forged and no full accusation of the entity is posted from outside, and which starts with the entity blacklisted by nobody: once nothing is under way, if no running gossiper has counted a fragment twice and at least T running gossipers hold the accusation, then every running gossiper has blacklisted the entity. Missing: runs in which a fragment is counted twice, for which the claim fails (`C92_violated_by_concurrent_duplicates`). what holds: under the same conditions on the network, in a round in which all accusations of an entity carry the same payload and no fragment is forged: once nothing is under way, if at least T gossipers hold the accusation then every running gossiper has blacklisted the entity."
  },
  {
   "property": "C93",
   "status": "partial",
   "theorems": [
    "CTng.C93_violated_fragment_always_kept",
    "CTng.C93_fragment_ignored_at_threshold_partial"
   ],
   "note": "fails: a new fragment about an entity that is not blacklisted, with fewer than Threshold - 1 fragments held for its statement, is kept and passed on to every connected gossiper, whatever FULL objects are held. (The code looks the FULL object up under the fragment's own type, where it never is.) What holds of C93: once Threshold fragments are held for a statement, a further fragment about it changes nothing but the count of received bytes, and nothing is sent. Missing: the same once only the FULL object is held."
  },
  {
   "property": "C94",
   "status": "partial",
   "theorems": [
    "CTng.C94_converge_time_partial",
    "CTng.C94_init_converge_time_partial",
    "CTng.C94_violated_counted_twice",
    "CTng.C94_violated_stale",
    "CTng.C94_violated_overwritten",
    "CTng.C94_violated_overshoot"
   ],
   "note": "What holds of C94: when an event changes the recorded convergence time, the new value is the second of the clock at that event, and if every FULL object and conflict proof held is about a different known entity, then the gossiper holds one about every known entity. Missing: several outcomes about one entity are counted several times, see `C94_violated_counted_twice`; the time of an earlier period stays in the log, see `C94_violated_stale`. The same for the time recorded when all first statements have been seen. fails: the FULL object of L1 and a copy of it with another period in its (unsigned) period field are counted as the outcomes of the logger L1 and the CA C1: the convergence time is recorded although nothing about C1 is held. fails: the time of an earlier period stays."
  },
  {
   "property": "C78",
   "status": "partial",
   "theorems": [
    "CTng.C78_in_time_partial",
    "CTng.C78_violated_late_proofs"
   ],
   "note": "part: a proof of misbehaviour, tree head or revocation that is delivered before the end of the period it names is in the update of that period, unless an object with the same id arrives in between or (tree heads and revocations) a conflict proof filed under \"0\" is at hand. Missing for the full property: later deliveries, see the next theorem. fails: a proof of misbehaviour that reaches the monitor after the last period end of the minute it names (the update is written 20 seconds before the minute is over) is in no update ever written, even if the gossiper delivers it again: the next period end drops it from the recent proofs, and from then on it counts as a duplicate."
  },
  {
   "property": "C80",
   "status": "partial",
   "theorems": [
    "CTng.C80_violated_fetch",
    "CTng.C80_file_partial",
    "CTng.C80_reply_partial",
    "CTng.C80_fetch_fails_closed",
    "CTng.C80_served_is_on_disk"
   ],
   "note": "does not hold: whatever files the monitor has and whatever the client sends with its request, fetching a client update is an error. The update is sent as a JSON string, or the handler dies because there is no such file. for the file: every client update a monitor has written is read back from its file exactly as it was, by the client and by the monitor itself, whatever bytes the monitor was sent. Missing for the full property: the way from the monitor to the client. for a client that names the period in the body of its request and undoes the extra encoding: it gets the update as it was written. Missing: `FetchClientUpdate` does neither."
  },
  {
   "property": "C95",
   "status": "partial",
   "theorems": [
    "CTng.C95_bytes_as_objects_partial",
    "CTng.C95_transfer_partial",
    "CTng.C95_peer_reads_partial",
    "CTng.C95_owner_reads_partial",
    "CTng.C95_gossiper_reads_partial",
    "CTng.C95_violated_identifier"
   ],
   "note": "for gossipers whose identifiers are valid UTF-8: a network that exchanges bytes, with any bytes posted from outside, does the same as the network that exchanges objects, on the requests that decode. Missing for the full property: identifiers that are not valid UTF-8. for the theorems about networks that exchange objects: what holds of the gossipers in every reachable state holds of gossipers that exchange bytes. Missing: as above. for what is posted to a gossiper: the request under way is answered as one that carries exactly the object or the notification that was sent, of exactly its length. Missing: as above. for what a gossiper hands to its monitor: the monitor decodes exactly that object, and answers 200. Missing: as above. for what a monitor posts to its gossiper: the gossiper decodes exactly that object, whatever bytes the monitor was sent. Missing: as above."
  },
  {
   "property": "C96",
   "status": "partial",
   "theorems": [
    "CTng.C96_bad_answer_is_none",
    "CTng.C96_gossiper_partial",
    "CTng.C96_monitor_partial",
    "CTng.C96_violated_monitor"
   ],
   "note": "for gossipers: a request to no route, or whose body does not begin with a JSON text that fits the type, changes nothing. Missing for the full property: the monitor's port. for the monitor's port: a body that does not begin with a JSON text changes nothing. Missing: bodies that are JSON but do not fit the type. does not hold of the monitor: it answers 400 to a body that does not fit the type, and keeps what it could read of it."
  },
  {
   "property": "C97",
   "status": "partial",
   "theorems": [
    "CTng.C97_violated_no_hash",
    "CTng.C97_plain_partial",
    "CTng.C97_last_member_partial",
    "CTng.C97_payload_bytes_partial"
   ],
   "note": "does not hold: of the tree heads loggers make, none gives a root hash, and nothing after one of them does: the payload is the hexadecimal form of the JSON text, not the text. for objects whose payload is the JSON text itself: their root hashes, in order. Missing for the full property: the hexadecimal form, which is what the objects of the system have. what holds for any payload: if it is an object, its last member called `RootHash` counts, whatever members are before it. the payload of a tree head: its JSON decodes to it, without an error. Missing: strings that are not ASCII, and the extraction, which is `C97_plain_partial`."
  },
  {
   "property": "C98",
   "status": "partial",
   "theorems": [
    "CTng.C98_directory_counts_periods_partial",
    "CTng.C98_kept_partial",
    "CTng.C98_violated_after_an_hour",
    "CTng.C98_violated_update_lost"
   ],
   "note": "while the minute of the hour has not wrapped around: the update made `n` minutes after the start is filed under `n`. Missing: a start at minute 58 is followed by the periods -58, -57, ... the update of a period stays on file as it was written for as long as no period with the same minute of the hour ends, in every history. Missing: the next theorem. is false: whatever happens in between, an hour later the name of the directory comes back and the update filed there is the new one, labelled with the same period. the tree head filed in the period at minute 5 is in no file once the hour is over."
  },
  {
   "property": "C99",
   "status": "partial",
   "theorems": [
    "CTng.C99_violated_file",
    "CTng.C99_loaded_partial",
    "CTng.C99_violated_always_fails",
    "CTng.C99_violated_type_unchecked"
   ],
   "note": "is false: the file of any list of objects, loaded under the name of a storage, is loaded completely - under each id the last object of the list with that id, the rest of that storage and the other storages as before - and the call returns an error, as it does for every file whatever is in it. what is loaded: under each id the last object of the list with that id, and what was there before if there is none; the other three storages stay. Missing: the call reports an error although it succeeded (next theorem). is false: loading a list always reports a mismatch, whatever the name and the list. is false: objects of any type are filed in the storage that was named, and nothing is verified: a tree head that is signed by nobody ends up among the threshold-signed revocations."
  },
  {
   "property": "C100",
   "status": "proved",
   "theorems": [
    "CTng.C100_fragments_flood",
    "CTng.C100_full_lists_are_certified"
   ],
   "note": "In a fully connected network of gossipers with the same keys, with all goroutines interleaved in any way, during a round in which nothing stands against the statement: once nothing is under way, every fragment of the round that a running gossiper keeps is kept, with the same signature, by every running gossiper that has fewer than Threshold fragments and has not blacklisted the entity."
  },
  {
   "property": "C101",
   "status": "partial",
   "theorems": [
    "CTng.C101_same_host_partial",
    "CTng.C101_violated_contains",
    "CTng.C101_violated_ipv6"
   ],
   "note": "for host names and IPv4 addresses (no bracket in either address): a caller is taken for the owner exactly when the host before the port is the owner's, whatever the ports. Missing: the two theorems below. is false: every address that contains \"[::1]\" anywhere is taken for the owner. is false: two IPv6 hosts with the same first group are taken for one."
  },
  {
   "property": "C102",
   "status": "proved",
   "theorems": [
    "CTng.C102_possible_issuers",
    "CTng.C102_pem_adds_certificates",
    "CTng.C102_pem_text",
    "CTng.C102_pem_bundle"
   ],
   "note": "The possible issuers of a certificate are the certificates added under its authority key id, and only if there are none of these, the ones added with its issuer as their subject."
  },
  {
   "property": "C103",
   "status": "proved",
   "theorems": [
    "CTng.C103_every_ca_gets_every_head"
   ],
   "note": "In every history the logger makes one tree head per period, each CA on its list is sent all of them in order and nothing else, and what the logger keeps for its monitors is one of them, labelled with the period it is kept for (up to padding)."
  },
  {
   "property": "C104",
   "status": "partial",
   "theorems": [
    "CTng.C104_own_keys_partial",
    "CTng.C104_violated_coalition"
   ],
   "note": "for signing keys and for the threshold keys of the first `t` entities: if the random generator does not repeat, no two entities have the same secret key. Missing: the threshold keys of the others (next theorem). is false: the threshold keys of the first `t` entities together determine those of all others, so that these `t` entities can make every fragment of everyone."
  },
  {
   "property": "C105",
   "status": "partial",
   "theorems": [
    "CTng.C105_split_views_are_exposed_partial",
    "CTng.C105_violated_signer_field"
   ],
   "note": "What holds of C105: in a fully connected network of gossipers with the same keys, whatever else is posted from outside and in whatever order messages arrive and goroutines and timers run: if a logger shows tree heads with different signatures for one period to different gossipers (each gossiper sees one version, `view`, under the same Signer field), then once nothing is under way every running gossiper has blacklisted the logger and posted a verifying conflict proof against it to its monitor, unless a running gossiper has posted a verifying full accusation of the logger to its monitor. The gossipers that were shown a version must not have crashed. Missing: loggers that vary the Signer field, which no signature covers (`C105_violated_signer_field`), and both versions at one gossiper at the same time (`C36_violated_concurrent_equivocation`)."
  },
  {
   "property": "C106",
   "status": "partial",
   "theorems": [
    "CTng.C106_forwards_alternate_partial",
    "CTng.C106_forwarded_once_partial",
    "CTng.C106_violated_endless"
   ],
   "note": "What holds of C106: a gossiper that executes its requests one at a time and has nothing about a tree head yet forwards it, until the next wipe, only when the Signer field differs from that of the version it forwarded last; each version forwarded to the monitor is posted to every connected gossiper once, and nothing else about it is posted. Missing: versions with alternating Signer fields (`C106_violated_endless`), and requests executed at the same time. for loggers that use one Signer field: the tree head is forwarded at most once, so each connected gossiper gets it once. fails: in a pair of gossipers, two tree heads of one entity and period that verify and have different Signer fields, each posted once to one of the gossipers, never come to rest."
  },
  {
   "property": "C107",
   "status": "proved",
   "theorems": [
    "CTng.C107_certificates_survive",
    "CTng.C107_keys_survive"
   ],
   "note": "A certificate that was saved is read back byte for byte, whatever was saved under other paths before and after."
  },
  {
   "property": "C108",
   "status": "partial",
   "theorems": [
    "CTng.C108_violated_any_block",
    "CTng.C108_first_block_partial",
    "CTng.C108_block_of_file_partial"
   ],
   "note": "fails: `ReadCertificateFromDisk` does not look at the type of the block and returns the bytes of a private key file. What holds of C108: what is returned is the content of the first block of the file, so of a certificate if all blocks of the file are certificates; a file without blocks is an error. What holds of C108, in terms of the text: what is returned is the content of a block of the file, with a BEGIN and an END line of one and the same type."
  },
  {
   "property": "C109",
   "status": "proved",
   "theorems": [
    "CTng.C109_delete_removes_tree",
    "CTng.C109_delete_dot",
    "CTng.C109_delete_other"
   ],
   "note": "`DeleteFilesAndDirectories` of a directory removes the directory and everything below it, nothing else, and reports success, in whatever order directories are listed."
  },
  {
   "property": "C110",
   "status": "partial",
   "theorems": [
    "CTng.C110_saves_are_stored_partial",
    "CTng.C110_violated_silent"
   ],
   "note": "What holds of C110: if no file stands at the storage directory or above it, then after cleaning up and any number of saves each period's file has the update last saved for it, no other period has a file, the vectors are the last ones, and everything outside the directory is as before. Missing: the error when a file is in the way. fails: with a file at the place of the storage directory nothing is stored, cleaning up does not help, and every save returns nil."
  },
  {
   "property": "C111",
   "status": "partial",
   "theorems": [
    "CTng.C111_monitors_know_partial",
    "CTng.C111_clients_reject_partial",
    "CTng.C111_violated_late"
   ],
   "note": "the monitors' part: gossipers and monitors run together from start-up, all orders of messages, goroutines and timers, and everybody else posts what they like (but no further version of the tree head). If a logger answers the queries of two monitors with tree heads for one period under different signatures, then once nothing is under way every monitor whose gossiper runs has a conflict proof against the logger on file, or the monitor of a running gossiper has a full accusation of it on file. Missing: what C105 misses. the clients' part: if in addition the monitor of `z` ends its period at `clk` without having ended one since the tree heads appeared, and every conflict proof against the logger that it is delivered is new and names the minute of `clk`, then the update it writes makes every client that accepts it reject all certificates relying on entries that name the logger."
  },
  {
   "property": "C112",
   "status": "partial",
   "theorems": [
    "CTng.C112_violated_unbound_id",
    "CTng.C112_same_extension_partial"
   ],
   "note": "is false: the client reads the revocation id from the certificate's extension, which neither the inclusion proof nor any signature it checks covers. Whoever holds a certificate with a good entry, revoked or not, can write into it an id beyond the end of the CA's vector, and every client accepts it, with the same subject, key, issuer and entries. what holds: a certificate with the issuer name and the extension of one whose bit is set is not accepted, whatever else was changed in it. Missing: changes of the extension."
  },
  {
   "property": "C113",
   "status": "partial",
   "theorems": [
    "CTng.C113_violated_certificate",
    "CTng.C113_certificate_partial",
    "CTng.C113_gossip"
   ],
   "note": "is false for certificates: without TLS the caller gets an empty certificate and no error, and a server without a certificate crashes it. what holds for certificates: what is returned without an error is the first certificate the server presented, or the empty certificate over a connection without TLS; and no client accepts the latter. Missing: the error."
  },
  {
   "property": "C114",
   "status": "partial",
   "theorems": [
    "CTng.C114_monitors_know_partial",
    "CTng.C114_clients_reject_partial",
    "CTng.C114_violated_late"
   ],
   "note": "the monitors' part: gossipers and monitors run together from start-up, all orders of messages, goroutines and timers. If at least T monitors whose gossipers run end their wait for an entity in one minute without a statement of it and without a proof against it, then once nothing is under way every running gossiper has blacklisted the entity, and its monitor has a full accusation or a conflict proof against it on file. Missing: what C92 misses (signatures counted twice, accusations of one entity that differ in more than their signer)."
  },
  {
   "property": "C115",
   "status": "partial",
   "theorems": [
    "CTng.C115_logger",
    "CTng.C115_violated_first_period",
    "CTng.C115_ca_partial",
    "CTng.C115_convicts"
   ],
   "note": "for CAs does not hold in the first period: if certificate 1 is among the revoked ones, the lie is the truth. for CAs, in every period but the first, and in the first if certificate 1 is not revoked: what a CA shows instead of its revocations is a split view of them, with one more certificate. Missing: the first period with certificate 1 revoked."
  },
  {
   "property": "C116",
   "status": "partial",
   "theorems": [
    "CTng.C116_clients_record_partial",
    "CTng.C116_clients_revoke_partial",
    "CTng.C116_violated_next_minute"
   ],
   "note": "tree heads: gossipers and monitors run together from start-up, all orders of messages, goroutines and timers. A logger answers the query of one monitor with its tree head, and shows nobody another one. If at least T gossipers run when nothing is under way any more, and the signatures were completed and delivered in the minute of the next update of the monitor of `z`, then every client with the same keys that accepts this update has recorded the root of the tree head for the logger and that minute. Missing: signatures completed in the minute after (`C116_violated_next_minute`), runs in which a signature is counted twice (C91). revocations (in the mode without payload optimisation): as above, and a client that has no vector of the CA yet and accepts the update takes over the vector of the revocation update, so that it never again accepts a certificate revoked in it."
  },
  {
   "property": "C117",
   "status": "partial",
   "theorems": [
    "CTng.C117_accepted_partial",
    "CTng.C117_violated_other_minute",
    "CTng.C117_violated_first_minutes",
    "CTng.C117_violated_later_revocation"
   ],
   "note": "what holds: let `f` be a verifying object with the payload of the revocation an honest CA publishes at the end of its first period, dated as the CA dated it. A usable client that has no vector of the CA yet accepts an update with `f` and takes over the whole vector. Missing: other dates (`C117_violated_other_minute`), later periods (`C117_violated_later_revocation`). fails: the signed hash of a revocation covers the period the CA wrote, clients check it with the date of the FULL object. Let `f` be any object with the payload of a revocation an honest CA published, with another date. No client accepts an update with `f` in it, with verification on or off and whatever it knows (or a hash collision is exhibited), and one that handles it accepts nothing ever after. fails in ten minutes of every hour: a CA that builds its revocation in minutes 0 to 8 or 59 writes a period no clock shows."
  },
  {
   "property": "C118",
   "status": "partial",
   "theorems": [
    "CTng.C118_logger_on_time_partial",
    "CTng.C118_violated_late_timers",
    "CTng.C118_violated_two_minutes",
    "CTng.C118_ca_on_time_partial",
    "CTng.C118_ca_start",
    "CTng.C118_update_on_time_partial",
    "CTng.C118_violated_late_queries",
    "CTng.C118_violated_other_mode"
   ],
   "note": "for loggers. Whenever an honest logger with a period of 60 seconds was started, and as long as the lateness of its timers has not added up to the last twenty seconds of a minute: from its second minute on, in every minute but the first of each hour, it answers with the tree head it built in the last twenty seconds of the minute before, over the certificates it held then, labelled with the current minute. Missing for the full property: minute 0, other periods, late timers. fails when timers are late: each call of the periodic task is counted from the actual beginning of the one before, so that lateness accumulates, and once it does without bound a minute passes without a round. In the minute after it every honest logger answers with the empty object or with a tree head that is at least an hour old."
  },
  {
   "property": "C119",
   "status": "partial",
   "theorems": [
    "CTng.C119_proofs_in_time_partial",
    "CTng.C119_violated_first_second"
   ],
   "note": "for a CA that was not started in the first second of a minute. The CA and a logger have periods of 60 seconds, `k` and `i` count their rounds of the same minute. If the logger's tree head and its proof for a certificate arrive within `d` milliseconds after it began to end its round, and the logger is not behind the CA by more than the second they are apart, then the certificate carries both when the CA ends the round. Missing: a CA started in the first second. fails for a CA that is started in the first second of a minute: it ends each round before a logger that was started (in any minute and second) at a later fraction of a second begins to end its own. All timers are exact and every message of the logger arrives within 19 seconds; yet in no round does a certificate of the CA get an entry of this logger, and the proofs that arrive after the round change nothing."
  },
  {
   "property": "C120",
   "status": "partial",
   "theorems": [
    "CTng.C120_reliable_network_partial",
    "CTng.C120_issuers_answer_partial",
    "CTng.C120_tree_heads_partial",
    "CTng.C120_violated_unreachable_issuer"
   ],
   "note": "the model of C64, C75 and C103 is this one when every post succeeds: all they say holds here too. what a round needs: after any history over any network, with at least two certificates in the pool, no two of them with one key id and none without, the end of a period succeeds exactly when the issuer of every logged certificate answers. Missing for the full property: unreachable issuers. tree heads: whatever the network does and whatever the pool holds, a round that succeeds has brought its one tree head to exactly the CAs of the list that answer, in the order of the list; the others are skipped. And when all issuers answer it does succeed. Missing for the full property: rounds with an unreachable issuer."
  },
  {
   "property": "C121",
   "status": "proved",
   "theorems": [
    "CTng.C121_gossiper_posts_arrive",
    "CTng.C121_monitor_posts_arrive",
    "CTng.C121_other_requests_arrive",
    "CTng.C121_answered"
   ],
   "note": "between gossipers: whatever anyone posts to them and whatever the schedule, every request a gossiper has under way reaches at its destination the handler that decodes what the request carries, and starts it."
  },
  {
   "property": "C122",
   "status": "partial",
   "theorems": [
    "CTng.C122_sections_are_atomic_partial",
    "CTng.C122_accesses_exclude_partial",
    "CTng.C122_violated_save_takes_no_lock"
   ],
   "note": "as long as no wipe meets a held lock, the gossiper with its locks and single map accesses, under any interleaving, does what the gossiper with atomic sections (`crun`) does under a part of the same events in the same order: the shared data is the same and every goroutine is at the same point. two goroutines are never in the same map at the same time with one of them writing, except for `Save`. is violated: whenever a goroutine is writing a list of fragments while another one is about to `Save`, the loops of `Save` can be in the same map at the same time (\"concurrent map iteration and map write\" ends the process)."
  },
  {
   "property": "C123",
   "status": "proved",
   "theorems": [
    "CTng.C123_no_deadlock",
    "CTng.C123_sections_end"
   ],
   "note": "under any interleaving, as long as no wipe meets a held lock: if some goroutine is not finished, some goroutine can make a step."
  },
  {
   "property": "C124",
   "status": "partial",
   "theorems": [
    "CTng.C124_violated_wipe_ends_process",
    "CTng.C124_calm_never_fatal_partial"
   ],
   "note": "is violated: whenever a goroutine is about to wipe the storage while another one holds a lock, the wipe followed by the other goroutine's remaining steps ends the process, whatever the request was. what holds: as long as each wipe happens while no lock is held or awaited by a writer, the runtime never ends the process for an unlock of an unlocked lock."
  },
  {
   "property": "C125",
   "status": "partial",
   "theorems": [
    "CTng.C125_round_of_first_pool_partial",
    "CTng.C125_violated_window",
    "CTng.C125_calm_none_lost_partial"
   ],
   "note": "what an end of period does whatever arrives meanwhile: from any reachable state, with any certificates and requests between its steps, the moment it clears the pool the tree head stored for the next period, the tree heads and the proofs posted are those of the round executed at once on the pool it began with. All certificates that arrived in between are thrown away. Missing for the full property: those certificates, and ends of periods that overlap."
  },
  {
   "property": "C126",
   "status": "partial",
   "theorems": [
    "CTng.C126_round_alone_survives_partial",
    "CTng.C126_alone_partial",
    "CTng.C126_violated_overlap"
   ],
   "note": "what holds: the end of a period of a logger with two certificates in its pool, whose issuers answer, does not end the process, however long it takes and whatever certificates and requests arrive between its steps, if no other end of period begins meanwhile. Missing for the full property: ends of periods that overlap. a part: the end of a period whose steps nothing comes between is the round of the sequential model (`loggerRoundVia`, of which C64, C75, C103 and C120 speak): it ends the process if and only if that one does, and otherwise leaves the same state. fails when two ends of periods overlap, which takes posts slower than a period: if one clears the pool while the other still has a proof to post, the next step of the other one dereferences nil and the process ends. In any state, whatever the certificates, and even if every address answers."
  },
  {
   "property": "C127",
   "status": "partial",
   "theorems": [
    "CTng.C127_alone_is_sequential_partial",
    "CTng.C127_any_interleaving_partial",
    "CTng.C127_violated_lost_entry",
    "CTng.C127_one_at_a_time_partial"
   ],
   "note": "one proof at a time: a handler executed without any other step in between does what `receive_poi` does at once (C60, C86). Missing for the full property: handlers of the same certificate at the same time. what holds under any interleaving of any number of proofs, tree heads and requests: every certificate of the pool keeps its revocation id, subject, key id and key, has an extension with at most one entry per tree-head signer, and every entry has a verified tree head or none. Missing for the full property: that no entry is lost. fails: in any state of the span, two proofs for one certificate, from loggers that have no entry in it yet, are decoded one after the other and then written one after the other: both handlers have answered, and the entry of the first is not in the certificate."
  },
  {
   "property": "C128",
   "status": "partial",
   "theorems": [
    "CTng.C128_ca_counter_partial",
    "CTng.C128_logger_counters_partial",
    "CTng.C128_violated_unlocked_reads"
   ],
   "note": "at a CA: the count of requests is never accessed by two goroutines at once if one of them writes, in any schedule of any number of requests, tree heads, proofs, starts and ends of periods. at a logger: between ends of periods the count of requests is accessed by one goroutine at a time. If ends of periods do not overlap, the duration is too. Missing for the full property: the count during an end of a period. fails: the end of a logger's period copies the whole context (Logger/server.go:227) without the lock while a request may be writing the count; and requests at a CA read the duration without the lock while the end of a period writes it."
  },
  {
   "property": "C129",
   "status": "partial",
   "theorems": [
    "CTng.C129_ca_private_partial",
    "CTng.C129_between_periods_partial",
    "CTng.C129_monitor_writes_partial",
    "CTng.C129_ca_writes_partial",
    "CTng.C129_violated_ca",
    "CTng.C129_violated_logger",
    "CTng.C129_violated_monitor"
   ],
   "note": "at a CA, what holds: if starts of periods do not overlap each other and ends of periods do not either, the revocation vector, its flag, the counter of certificates and the keys are accessed by one goroutine at a time. Handlers alone only read the storage of revocations. at a logger and a monitor, what holds between ends of periods: requests and certificates at a logger never race, and the storages of full tree heads and full revocations of a monitor are accessed by one writer or by readers. at a monitor, what holds between ends of periods: no map of objects or vectors is written by two goroutines at once, and among the handlers of objects and the queries (without the checks before accusations) the storages of objects and proofs are not read while they are written."
  },
  {
   "property": "C130",
   "status": "proved",
   "theorems": [
    "CTng.C130_no_deadlock"
   ],
   "note": "CA, logger and monitor never deadlock on their locks."
  },
  {
   "property": "C131",
   "status": "partial",
   "theorems": [
    "CTng.C131_violated_hour_later",
    "CTng.C131_violated_late_build",
    "CTng.C131_one_hour_partial"
   ],
   "note": "is false: an honest logger ends a period at minute `m` of one hour and again at minute `m` of another, and a gossiper that holds the later tree head is posted the earlier one, unaltered (or the other way round). The gossiper convicts the logger, with a conflict proof that verifies everywhere (or the hash function collides). fails without anybody replaying anything, too: an honest logger still serves the tree head of the hour before while it builds the new one, if that takes until the next minute. Two monitors that ask in one minute, before and after the store, get a split view. what holds: if no two tree heads of an honest logger carry the same label (that is, within an hour), a gossiper that is posted no other tree head of the logger, no revocation naming it and no conflict proof naming it holds no conflict proof naming it, and has it blacklisted only on a full accusation."
  },
  {
   "property": "C132",
   "status": "partial",
   "theorems": [
    "CTng.C132_same_minute_partial",
    "CTng.C132_clients_partial",
    "CTng.C132_violated_next_minute"
   ],
   "note": "at a gossiper, what holds: from a moment at which it has no tree heads, under every schedule: if its clock shows the minute `p` all along and every tree head and every signature on one that it is posted is dated `p` and has the property `Lab` (that it was labelled `p` by its logger, say), then so does every completely signed tree head it hands to its monitor. Missing: nothing keeps posts of another minute out, and the result is dated with the minute it was completed in. at monitors and clients, what holds: what an accepted update of a monitor adds to a client's roots are the roots of the completely signed tree heads delivered to the monitor, each under the minute of its date. is false, though all gossipers, monitors and the logger follow the code: L1 shows its tree head of minute 5, the gossipers sign it in minute 6."
  },
  {
   "property": "C133",
   "status": "partial",
   "theorems": [
    "CTng.C133_violated_gossiper_sender",
    "CTng.C133_violated_gossiper_payload",
    "CTng.C133_gossiper_partial",
    "CTng.C133_logger_partial",
    "CTng.C133_violated_logger_issuer",
    "CTng.C133_monitor"
   ],
   "note": "fails at every gossiper: whoever can post to it has it post to any address (and, since the address is the text between `http://` and the route, with any path). fails at every gossiper that holds the payload of a revocation: whoever can post to it has it post the whole revocation to any address. at a gossiper, what holds under every schedule: an address that is not a configured peer is sent at most as many requests as there were messages that named it, and only answers to such messages: the question for a revocation, or a revocation. Missing: messages may name any address. at a logger, what holds under every schedule of ends of periods, certificates and requests: tree heads are posted to the configured CAs only, and proofs of inclusion only to issuers named in certificates that were posted to it. Missing: certificates may name any issuer."
  },
  {
   "property": "C134",
   "status": "partial",
   "theorems": [
    "CTng.C134_alone_partial",
    "CTng.C134_ids_and_subjects_partial",
    "CTng.C134_violated_same_id",
    "CTng.C134_violated_same_subject"
   ],
   "note": "a part: a round whose steps are not interleaved with those of another round is the round of the sequential model (`startRound`), of which C54 is proved; and the end of a round likewise is `endRound`. a part: as long as no two rounds make certificates at the same time, the `j`-th certificate the CA makes has the id `j` and the subject \"Testing Dummy j\", whatever else is interleaved: steps of other rounds that post certificates or end, tree heads, proofs, requests, revocations, new ticks. So neither ids nor subjects are ever used twice. violated: two rounds that are both about to read the counter (CA/ca.go:20) read the same number when the second reads before the first has stepped it (CA/ca.go:65): two certificates with the same revocation id, and one id that no certificate has."
  },
  {
   "property": "C135",
   "status": "partial",
   "theorems": [
    "CTng.C135_kept_partial",
    "CTng.C135_violated_late_end",
    "CTng.C135_violated_same_subject",
    "CTng.C135_serial_rounds_partial"
   ],
   "note": "a part: if no two rounds make certificates at the same time and no round ends while another one holds certificates, every certificate a round has put into the pool or posted is in the pool until the round itself ends, however the steps are interleaved with tree heads, proofs, requests and revocations; and `GetCertBySubjectKeyID`, which `receive_poi` asks, finds it, provided no other certificate of the CA has the same key. violated: f1 is armed only after all certificates are posted (CA/server.go:438), the next tick before anything is done (341); if making and posting takes longer than 20 seconds, f1 of a round comes after the next round has begun, and replaces the pool with all certificates the next round has put there. As long as that round takes no further step, none of its certificates is found and every proof for one of them is dropped, whatever else arrives."
  },
  {
   "property": "C136",
   "status": "partial",
   "theorems": [
    "CTng.C136_names",
    "CTng.C136_identifiers_partial",
    "CTng.C136_violated_identifiers"
   ],
   "note": "a part: identifiers of the ten types whose periods have the same length (those of `GetCurrentPeriod` have two digits) print differently (`Gossip_ID.String`) unless they are equal. violated: the three parts are joined without a separator. For every type and all strings `a`, `b`, `c`, two different identifiers print the same."
  },
  {
   "property": "C137",
   "status": "proved",
   "theorems": [
    "CTng.C137_objects",
    "CTng.C137_notifications",
    "CTng.C137_fields"
   ],
   "note": "for objects: a gossiper takes a body posted to one of the addresses of objects if and only if it begins with a JSON text that fits the type; it takes it for the object of that text."
  },
  {
   "property": "C138",
   "status": "partial",
   "theorems": [
    "CTng.C138_listed_partial",
    "CTng.C138_held_partial",
    "CTng.C138_violated_other_period",
    "CTng.C138_violated_excluded"
   ],
   "note": "one half: in every schedule every update on file lists only objects that were posted to the monitor or answered to its queries, each in the list of its type and no id twice. Missing for the full property: objects of other periods are listed (`C138_violated_other_period`). the other half: whatever handlers, queries, timers and other ends of periods do meanwhile, the update lists every object of the period that is on file when the end of the period starts, if nothing with its id replaces it and, for tree heads and revocations, no conflict proof filed under \"0\" excludes it. fails: a tree head of any other period that arrives after the storages were cleared and before they are listed is in the update of this period. fails for excluded entities too: although a conflict proof filed under \"0\" against it is on file before the end of the period starts, the update lists a tree head of the entity."
  },
  {
   "property": "C139",
   "status": "partial",
   "theorems": [
    "CTng.C139_violated_overwritten",
    "CTng.C139_settled_partial",
    "CTng.C139_apart_partial"
   ],
   "note": "fails: two timers of one CA that both look before either stores. The vector of the first is on file and is then replaced by that of the second: every certificate revoked in the first only is no longer revoked. a vector that is on file stays as it is in every schedule that follows, if no timer has looked before. for monitors whose timers of one CA do not overlap: once a vector is on file it stays, so no revocation it has disappears. Missing for the full property: timers that overlap."
  },
  {
   "property": "C140",
   "status": "partial",
   "theorems": [
    "CTng.C140_violated_meanwhile",
    "CTng.C140_looked_before_partial"
   ],
   "note": "fails: if the statement of the entity arrives after the timer has looked for it, and a proof of misbehaviour after it has looked for one, the accusation goes out although the monitor has both. in every schedule each accusation a monitor sends names an entity of which it had, at some moment before, no statement for the period its clock then showed, and against which it had, at some moment before, no proof. Missing for the full property: that this is still so when it sends."
  },
  {
   "property": "C141",
   "status": "partial",
   "theorems": [
    "CTng.C141_generate",
    "CTng.C141_names",
    "CTng.C141_config_partial",
    "CTng.C141_violated_refused",
    "CTng.C141_violated_signatures",
    "CTng.C141_signatures_partial"
   ],
   "note": "for `CryptoConfig.Hash`: with SHA256 and MD5 configured it computes that algorithm; nothing else gives a hash. Missing for the full property: the other algorithms, and that signatures use it. fails: four algorithms that `generateHash` computes are refused when they are configured. fails: signatures do not use the configured scheme. Whatever it is, even one that `Hash` refuses, signing gives the same signature, and a signature made under one scheme verifies under every other. with \"rsa\" configured, what is signed and verified is the SHA256 hash."
  },
  {
   "property": "C142",
   "status": "partial",
   "theorems": [
    "CTng.C142_extracted_iff_partial",
    "CTng.C142_logger_root_partial",
    "CTng.C142_root_binds_partial",
    "CTng.C142_client_same_root_partial",
    "CTng.C142_violated_client_lenient"
   ],
   "note": "exactly: a root comes out if and only if the payload is the hexadecimal form, in either case, of the JSON of a tree head, and the root it names is the hexadecimal form of the bytes returned. what holds: the root taken out of a tree head a logger builds is the root of the tree over its certificates: every proof of inclusion handed out with it verifies against it. what holds: two tree heads built by loggers for equally many certificates that announce one root are for the same subjects in the same order, or the trees exhibit a collision of the hash. what holds: where a root comes out, the client goes by the same root. After accepting the tree head it has it on file, in hexadecimal; a certificate entry with this head passes only with a proof of inclusion that verifies against it."
  },
  {
   "property": "C143",
   "status": "partial",
   "theorems": [
    "CTng.C143_gossiper_monitor_start_partial",
    "CTng.C143_logger_ca_start_partial",
    "CTng.C143_violated_no_crypto_file",
    "CTng.C143_violated_broken_crypto_file",
    "CTng.C143_violated_null_files",
    "CTng.C143_violated_empty_keys",
    "CTng.C143_violated_other_object",
    "CTng.C143_generated_start_partial",
    "CTng.C143_started_interoperate_partial",
    "CTng.C143_client_start_partial",
    "CTng.C143_client_reads_partial",
    "CTng.C143_violated_mrd_ignored"
   ],
   "note": "what holds: a gossiper and a monitor run with exactly the configurations their files give, and end if the private or the public file gives none; the crypto file decides nothing. what holds: a logger needs all three files and runs with exactly what they give. A CA needs them too, and a private configuration that is not `null`. fails: without a crypto file a gossiper and a monitor run, with a nil crypto configuration. fails: with a crypto file that is not JSON at all the gossiper, the monitor, the logger and the client run, with a configuration that has no name, signs nothing and accepts nothing. fails: files with the text `null` are accepted; the gossiper, the monitor and the logger run with nil configurations. fails: a crypto file that lists names with objects that hold no numbers does not keep a gossiper from running; it has a key without modulus and with exponent 0 for every name."
  },
  {
   "property": "C144",
   "status": "partial",
   "theorems": [
    "CTng.C144_table_roundtrip_partial",
    "CTng.C144_mapped_start_partial",
    "CTng.C144_mapped_interoperate_partial",
    "CTng.C144_template_partial",
    "CTng.C144_violated_broken_table",
    "CTng.C144_violated_second_run",
    "CTng.C144_violated_half_mapped",
    "CTng.C144_on_disk_partial",
    "CTng.C144_no_deployment_partial"
   ],
   "note": "what holds: a table that was written is read back, with the same entries. what holds: `Map_all` over the files of a generated deployment comes to its end; then every process starts from its files, with the mapped lists and addresses, its old port, the same timing and its mapped key file (`mapAll` is the mapping of C70 and C89), under the address the table gives it. what holds: processes started after `Map_all` run under their new addresses and accept each other's signatures and the fragments of the gossipers. what holds: the table of the template (with masks in ASCII), written to its file and read back, gives entity `i` of a role the host `mask ++ (i + offset)` of that role. fails: a table that is not JSON is not refused. Everybody is mapped to an address without a host, and the processes start with it."
  },
  {
   "property": "C145",
   "status": "partial",
   "theorems": [
    "CTng.C145_once_per_query_partial",
    "CTng.C145_violated_late"
   ],
   "note": "what holds: whatever arrives and in whatever order the goroutines run, a monitor has accused an entity at most once for each time it has queried its list of loggers and CAs and each entry of the entity in these lists; an entity in neither list is never accused. fails: two queries of a logger that both fail in the second period give two accusations of it for that period. A query is not bounded in time, so the first can fail that late."
  },
  {
   "property": "C146",
   "status": "proved",
   "theorems": [
    "CTng.C146_ca_survives"
   ],
   "note": "no step of a round of a CA panics, in whatever order rounds, messages and requests run, nor does adding a certificate to its pool (data races aside, see C129). A round that has begun is over after `4 N + 4` of its own steps, `N` being the certificates per period, whatever happens between them."
  },
  {
   "property": "C147",
   "status": "partial",
   "theorems": [
    "CTng.C147_frag_verify_iff_partial",
    "CTng.C147_accepted_was_signed_partial",
    "CTng.C147_own_accepted_partial",
    "CTng.C147_violated_signer"
   ],
   "note": "what holds: a FRAG object of any kind is accepted exactly when it is an acceptable FRAG object. Missing: its Signer field. what holds: with genuine keys, an accepted FRAG object whose signature names a registered gossiper carries exactly the signature of this gossiper's key on the whole payload of the object. Missing: the Signer field of the object. what holds: the FRAG object a gossiper makes of an INIT object is accepted by everybody who has the gossiper's key, names the gossiper as signer, and keeps entity, payload and period. fails: a FRAG object is accepted with any Signer field, for any other period and as any other kind of FRAG."
  },
  {
   "property": "C148",
   "status": "partial",
   "theorems": [
    "CTng.C148_log_file_partial",
    "CTng.C148_violated_no_directory",
    "CTng.C148_test_programs_partial",
    "CTng.C148_violated_next_hour",
    "CTng.C148_violated_cumulative"
   ],
   "note": "(what holds): on a disk where the path can be written, after any history, the file is a JSON object with exactly one record for each minute at the end of which there was something to log; the record tells the state at the last such end. Before the first such end the disk is as it was found. Nothing else on the disk changes. fails for a context as `InitializeGossiperContext` makes it: the directory `Gossip_log` is never created, so unless it is there already, no history puts anything on the disk. (what holds): the test programs create directory and file first; unless a file is in the way of the directory, or a directory in that of the file, the path can then be written, so `C148_log_file_partial` applies. fails across hours: the record of a period is gone once there is something to log in the same minute of the next hour."
  },
  {
   "property": "C149",
   "status": "partial",
   "theorems": [
    "CTng.C149_logger_file_partial",
    "CTng.C149_violated_no_path"
   ],
   "note": "(what holds): on a disk where the path can be written, a history of a logger ends with the certificates of the last round that posted a proof in the file; if no round did, the disk is as it was found. Nothing else on the disk changes. fails for a context as `InitializeLoggerContext` makes it: `StoragePath` is empty, and whatever the logger does, nothing is written."
  },
  {
   "property": "C150",
   "status": "partial",
   "theorems": [
    "CTng.C150_one_at_a_time_partial",
    "CTng.C150_violated_other_scheme",
    "CTng.C150_only_by_overtaking_partial",
    "CTng.C150_violated_one_fragment"
   ],
   "note": "for a gossiper that does one thing at a time: with the bls scheme no history of messages (of any content), notifications, requests, timers and wipes ends the process. Missing: events that overlap, see `C150_only_by_overtaking_partial` and `C150_violated_one_fragment`, and other schemes, see `C150_violated_other_scheme`. Without the bls scheme every signing timer that fires for an entity not blacklisted ends the process: the fragment has no signature to print. under every schedule, in the model of atomic actions: with the bls scheme, messages of any content, requests and timers in any interleaving end the process only in this way: a periodic wipe is executed between the moment a goroutine has decided to aggregate and the moment it reads the fragments. Missing: that this cannot happen, see `C150_violated_one_fragment`; Go's own check for unlocked map accesses is C123 and C124."
  },
  {
   "property": "C151",
   "status": "partial",
   "theorems": [
    "CTng.C151_only_by_answers_partial",
    "CTng.C151_violated_one_answer",
    "CTng.C151_violated_empty_srh"
   ],
   "note": "the part that holds: whatever its gossiper posts to a monitor and in whatever order its goroutines run, its process is ended only by an answer to one of its queries: a statement signed in the name of somebody whose key the monitor does not have, a threshold-signed object whose signature is not JSON, or a revocation that verifies, with an SRH that is no signature or names somebody whose key it does not have. Missing for the full property: `C151_violated_one_answer`. (The Go runtime may also end the process for unlocked accesses to maps, see C129.) is false: there is one object that ends the process of every monitor, in whatever state, that gets it as the answer to one of its queries, from a logger or a CA; the object needs no key. So every logger and CA can end all monitors."
  },
  {
   "property": "C152",
   "status": "partial",
   "theorems": [
    "CTng.C152_updates_partial",
    "CTng.C152_certificates_partial",
    "CTng.C152_violated_one_object"
   ],
   "note": "the part that holds for updates: an update ends a client only if it has an object that is fatal, or a revocation that verifies with a fatal SRH. the part that holds for certificates: exactly two kinds of certificates end the client: with an entry that is fatal, of a signer it knows no proof against; and with a good entry, of a CA of which it knows no revocations. is false: there is one object, made without any key, such that every certificate with an entry for it ends every client that checks the certificate (and knows no proof against the signer the entry names), so every server can end the clients that connect to it; and every update with it ends every client that is given the update first."
  },
  {
   "property": "C153",
   "status": "proved",
   "theorems": [
    "CTng.C153_issued",
    "CTng.C153_subjects_differ",
    "CTng.C153_final"
   ],
   "note": "In every history of a CA the certificates sent to the loggers carry, in order, exactly the keys generated in the rounds; the one in place `j` has the subject \"Testing Dummy j\" (from 1), names the CA as issuer, is no CA certificate, has the hash of its key as key id, and an extension with the id `j` and no entry."
  },
  {
   "property": "C154",
   "status": "partial",
   "theorems": [
    "CTng.C154_faultless_period_partial",
    "CTng.C154_violated_by_default_optimisation",
    "CTng.C154_violated_by_concurrent_duplicates"
   ],
   "note": "Exact counts for the sequential gossiper, in optimisation mode if no fragment overtakes its revocation update; fails with the default optimisation settings when one does, and for concurrent duplicates."
  },
  {
   "property": "C155",
   "status": "partial",
   "theorems": [
    "CTng.C155_violated_own_files",
    "CTng.C155_violated_honest_ca_accused",
    "CTng.C155_lists_restore_partial"
   ],
   "note": "Nothing is loaded at a restart and the files a monitor writes cannot be loaded; an honest CA that has revoked a certificate is accused. Lists of objects, which nothing writes, would restore the stores."
  },
  {
   "property": "C156",
   "status": "partial",
   "theorems": [
    "CTng.C156_violated_hour_later",
    "CTng.C156_nothing_new_partial"
   ],
   "note": "False for the same minute of two hours when something new was revoked in between or the first was the first revocation of the CA. Holds when nothing new is said for a label that comes again."
  },
  {
   "property": "C157",
   "status": "partial",
   "theorems": [
    "CTng.C157_found_partial",
    "CTng.C157_violated_leftover",
    "CTng.C157_violated_config_path",
    "CTng.C157_programs_start_partial"
   ],
   "note": "Holds with an empty config_path. With any other one the four directories are made elsewhere than the files are to go and nothing is written; processes of an earlier larger deployment stay."
  },
  {
   "property": "C158",
   "status": "partial",
   "theorems": [
    "CTng.C158_latency_partial",
    "CTng.C158_no_latency_partial",
    "CTng.C158_violated_never_goes_on"
   ],
   "note": "Holds when Min_latency < Max_latency. With 0 < Max_latency <= Min_latency the loop never ends and the message is never sent or answered."
  },
  {
   "property": "C159",
   "status": "partial",
   "theorems": [
    "CTng.C159_unique_partial",
    "CTng.C159_accepted_partial",
    "CTng.C159_accepted_exactly_partial",
    "CTng.C159_generated",
    "CTng.C159_violated_long_name",
    "CTng.C159_violated_nul",
    "CTng.C159_violated_reverse"
   ],
   "note": "Holds for names of 1 to 31 bytes that do not begin with NUL, so for all generated ones. Longer names make key generation panic, and CTngIDfromBlsID is not the reverse of BlsID."
  },
  {
   "property": "C160",
   "status": "partial",
   "theorems": [
    "CTng.C160_saved_partial",
    "CTng.C160_violated_overlap"
   ],
   "note": "Holds when a round ends before the next begins. Otherwise the keys of the older certificates are gone and SaveToStorage panics."
  },
  {
   "property": "C161",
   "status": "partial",
   "theorems": [
    "CTng.C161_first_update",
    "CTng.C161_only_update",
    "CTng.C161_violated_first_ten_minutes",
    "CTng.C161_violated_many_monitors",
    "CTng.C161_logger_answers_partial",
    "CTng.C161_ca_answers_partial",
    "CTng.C161_violated_logger_later"
   ],
   "note": "Holds when the programs are started in one minute, delays are small and the first period is not in the first ten minutes of an hour. Otherwise the update is empty, the logger has nothing yet, or (tests 2 and 3, from fifteen monitors on) the update is written before the queries."
  },
  {
   "property": "C162",
   "status": "partial",
   "theorems": [
    "CTng.C162_end_to_end_partial"
   ],
   "note": "Proved for the minutes 10 to 59, signatures completed in the same minute and clients without a vector of the CA. Outside of these it is false: C77_violated_padding, C116_violated_next_minute, C117_violated_first_minutes, C117_violated_later_revocation."
  },
  {
   "property": "C163",
   "status": "proved",
   "theorems": [
    "CTng.C163_quarantine_under_every_schedule"
   ],
   "note": "Once an entity is blacklisted and no handler is past its blacklist check with an object that names it, the gossiper is done with the entity, in every order of the goroutines, whatever arrives and across ends of periods: it stays blacklisted, no object naming it goes to the owner or is signed, none is stored, and none goes to a peer other than in answer to a payload request of that peer."
  },
  {
   "property": "C164",
   "status": "proved",
   "theorems": [
    "CTng.C164_conviction_is_final"
   ],
   "note": "In a fully connected network of gossipers with the same keys, once a running gossiper holds a conflict proof and nothing is under way, the convicted entity is dead for good: whatever is posted to whom afterwards, in whatever order messages arrive and goroutines, timers and ends of periods run, no gossiper ever again signs a statement that names the entity, sends one to its owner, to another gossiper (other than a saved payload it was asked for), or stores one."
  },
  {
   "property": "C165",
   "status": "partial",
   "theorems": [
    "CTng.C165_one_full_to_the_owner_partial",
    "CTng.C165_violated_overtaking"
   ],
   "note": "what holds: once a FULL object is held for a statement and no other handler is between its count of FULL objects and its posting to the owner, nothing more of that type is posted to the owner for the statement before the next wipe, not even an object that does not verify, in whatever order the goroutines run and whatever arrives. Missing: handlers that overtake each other between count and posting (`C165_violated_overtaking`), and objects that do not verify before one that does is held (`C25_violated_invalid_full_reaches_owner`). fails: both handlers have counted when the first one stores, and the owner is sent two FULL objects for one statement."
  }
 ]
}