{"id": "C01", "title": "INIT objects verify exactly when the named RSA key signed the payload", "statement": "Gossip_object.Verify accepts an STH_INIT, REV_INIT or ACC_INIT object if and only if its first payload field and its signature are non-empty, the signature string decodes to a (signature bytes, signer id) pair, and RSA verification of the concatenation of the three payload fields succeeds under the public key registered for that signer id.", "quantifier": "every object, every crypto configuration, every behaviour of the RSA/JSON libraries", "why_tests_cant": "acceptance is an iff over all payload strings, signature strings and key maps; tests only sample a few signed objects", "anchors": ["definition/Verify.go:87-114", "definition/Verify.go:70-81", "crypto/crypto_config.go:42-49", "crypto/types.go:106-120"]}
{"id": "C02", "title": "Objects of unknown type are inert", "statement": "An object whose Type string is not one of the ten published type URLs never verifies, and handing it to a gossiper changes nothing in its storage or blacklist and sends nothing.", "quantifier": "every object with any other type string, every gossiper state", "why_tests_cant": "the set of other type strings is infinite", "anchors": ["definition/Verify.go:87-114", "gossiper/gossiper_server.go:180-208"]}
{"id": "C03", "title": "An accepted statement about an entity was signed by that entity", "statement": "If an STH_INIT or REV_INIT naming entity X in its first payload field verifies, then it carries a signature by the key registered for X.", "quantifier": "every object and key map", "why_tests_cant": "a negative property over all forged objects", "anchors": ["definition/Verify.go:70-81", "crypto/crypto_config.go:42-49"]}
{"id": "C04", "title": "Signatures bind period, type and signer", "statement": "If an object verifies, changing its Period, its Type (within INIT kinds) or its Signer field makes it fail, so that an old signed statement cannot be replayed for another period or as another kind of statement.", "quantifier": "every object, every change of the three fields", "why_tests_cant": "quantifies over all replays", "anchors": ["definition/Verify.go:87-114", "definition/Types.go:3-14"]}
{"id": "C05", "title": "Signatures bind the payload field boundaries", "statement": "If an object verifies, an object with the same signature and different payload fields does not verify (unless the hash collides).", "quantifier": "every pair of payload triples", "why_tests_cant": "quantifies over all ways of splitting a byte string", "anchors": ["definition/Verify.go:70-81", "definition/Verify.go:42-53", "definition/Verify.go:56-67"]}
{"id": "C06", "title": "A conflict proof convicts only an entity that signed two different statements", "statement": "If a CON_INIT object verifies, the entity named in its first payload field produced valid signatures on two different statements.", "quantifier": "every CON_INIT object and key map", "why_tests_cant": "a negative property over all forged proofs", "anchors": ["definition/Verify.go:22-39"]}
{"id": "C07", "title": "A FULL object carries signatures of at least Threshold distinct gossipers", "statement": "If an STH_FULL, REV_FULL or ACC_FULL object verifies, at least Threshold distinct registered gossipers signed its payload.", "quantifier": "every FULL object, every threshold and key map", "why_tests_cant": "a negative property over all forged threshold signatures", "anchors": ["definition/Verify.go:56-67", "crypto/bls.go:97-105"]}
{"id": "C08", "title": "Threshold signing is complete", "statement": "If k >= Threshold registered gossipers each sign the same message with ThresholdSign, ThresholdAggregate over the fragments in any order succeeds and ThresholdVerify accepts the result for that message; each single fragment passes FragmentVerify.", "quantifier": "every number of signers, every message, every order of the fragments", "why_tests_cant": "all signer sets, sizes and arrival orders", "anchors": ["crypto/bls.go:66-73", "crypto/bls.go:76-94", "crypto/bls.go:97-105", "crypto/bls.go:108-111", "crypto/crypto_config.go:61-71", "crypto/crypto_config.go:75-84", "crypto/crypto_config.go:88-97"]}
{"id": "C09", "title": "Aggregation is independent of fragment order", "statement": "ThresholdAggregate fails exactly when fewer than threshold fragments are given; otherwise the resulting id list is the sorted permutation of the fragment ids and the whole result is the same for every order of the input fragments.", "quantifier": "every list of fragments, every permutation of it, every threshold", "why_tests_cant": "factorially many orders", "anchors": ["crypto/bls.go:76-94", "crypto/types.go:44-48"]}
{"id": "C10", "title": "Signature strings round-trip", "statement": "RSASigFromString(sig.String()), SigFragmentFromString(frag.String()) and ThresholdSigFromString(t.String()) return the original value whenever the signer ids contain no character that JSON must escape.", "quantifier": "every signature byte string and id list", "why_tests_cant": "all byte strings", "anchors": ["crypto/types.go:101-103", "crypto/types.go:106-120", "crypto/types.go:196-198", "crypto/types.go:201-215", "crypto/types.go:222-232", "crypto/types.go:234-253"]}
{"id": "C11", "title": "Everything a gossiper holds as INIT, CON, FULL or saved payload has been verified", "statement": "In every state a gossiper can reach, under any interleaving of handlers, timers and wipes, each object held in the STH_INIT, REV_INIT, ACC_INIT, CON_INIT, *_FULL and REV_PAYLOAD stores verifies under the gossiper's crypto configuration.", "quantifier": "every sequence of received objects, every schedule of handler goroutines, timers and wipes", "why_tests_cant": "an invariant over unbounded histories and schedules", "anchors": ["gossiper/Interface.go:125-225", "gossiper/Interface.go:43-52", "gossiper/gossiper_server.go:180-208"]}
{"id": "C12", "title": "Stored objects are filed under their own identity", "statement": "In every reachable gossiper state, looking up (period, type, entity) returns only objects whose period, type and first payload field are exactly these.", "quantifier": "every history and schedule", "why_tests_cant": "an invariant over unbounded histories", "anchors": ["gossiper/Interface.go:125-225", "gossiper/Interface.go:227-256", "gossiper/Interface.go:529-561", "gossiper/Interface.go:436-453", "definition/Types.go:72-79"]}
{"id": "C13", "title": "At most Threshold fragments are kept per statement", "statement": "In every reachable gossiper state, under any interleaving, the fragment list held for one (period, type, entity) never exceeds Threshold entries.", "quantifier": "every history and schedule, every threshold", "why_tests_cant": "race conditions are schedule dependent", "anchors": ["gossiper/Interface.go:227-256"]}
{"id": "C14", "title": "A FULL object is produced at most once per statement between wipes", "statement": "Between two storage wipes, whatever the interleaving of handler goroutines and timers, a gossiper aggregates fragments into a FULL object at most once for each (period, type, entity), and exactly then when the Threshold-th fragment is kept.", "quantifier": "every schedule of concurrent fragment deliveries", "why_tests_cant": "depends on which goroutine wins a race", "anchors": ["gossiper/Interface.go:227-256", "gossiper/gossiper_server.go:331-363"]}
{"id": "C15", "title": "Blacklisting is permanent", "statement": "Once an entity is on a gossiper's blacklist it stays there through every later message, timer and storage wipe, under any interleaving.", "quantifier": "every history and schedule", "why_tests_cant": "an invariant over unbounded futures", "anchors": ["gossiper/Interface.go:118-123", "gossiper/Interface.go:125-225", "gossiper/Interface.go:629-639"]}
{"id": "C16", "title": "Blacklisting needs evidence", "statement": "An entity is on a gossiper's blacklist only if the gossiper has stored a CON_INIT or ACC_FULL object naming it that verifies under its crypto configuration.", "quantifier": "every history and schedule", "why_tests_cant": "quantifies over all histories that could add an entry", "anchors": ["gossiper/Interface.go:125-225"]}
{"id": "C17", "title": "A blacklisted entity is quarantined", "statement": "After an entity is blacklisted, a sequentially handled object naming it leaves storage and blacklist unchanged, is not forwarded to anybody, and no fragment is signed for it, not even by timers armed before the blacklisting.", "quantifier": "every state, every object and every armed timer", "why_tests_cant": "all histories before and after the blacklisting", "anchors": ["gossiper/gossiper_server.go:180-208", "gossiper/gossiper_server.go:210-251", "gossiper/gossiper_server.go:253-292", "gossiper/gossiper_server.go:294-316", "gossiper/Interface.go:432-434"]}
{"id": "C18", "title": "Equivocation is detected", "statement": "If a gossiper holds an STH_INIT or REV_INIT of some signer for an entity and period and then handles a second verifying object of that type, signer, entity and period with a different signature, then afterwards the entity is blacklisted, and a verifying conflict proof naming it has been sent to every connected gossiper and to the owner monitor.", "quantifier": "every reachable state and every pair of conflicting objects", "why_tests_cant": "all histories leading to the conflict", "anchors": ["gossiper/gossiper_server.go:210-251", "gossiper/gossiper_server.go:253-292", "gossiper/gossiper_server.go:318-329", "gossiper/Interface.go:613-627", "gossiper/gen.go:82-93"]}
{"id": "C19", "title": "An honest entity that signs one statement per period is never convicted of conflict", "statement": "If an entity signed only one statement for a period, no sequence of messages makes a gossiper blacklist it for equivocation in that period.", "quantifier": "every sequence of adversarial messages that reuse the honest signature", "why_tests_cant": "all adversarial strategies", "anchors": ["gossiper/Interface.go:613-627", "gossiper/gen.go:82-93", "definition/Verify.go:22-39"]}
{"id": "C20", "title": "Redelivery is idempotent", "statement": "Handling the same object twice in a row leaves the gossiper's storage, blacklist and armed timers exactly as after the first time.", "quantifier": "every object and reachable state", "why_tests_cant": "all states", "anchors": ["gossiper/gossiper_server.go:180-208", "gossiper/Interface.go:325-412", "gossiper/Interface.go:257-324"]}
{"id": "C21", "title": "A fragment is counted once", "statement": "The fragments kept for one statement have pairwise different signatures, so a redelivered fragment does not count twice towards the threshold.", "quantifier": "every history; sequential and concurrent schedules", "why_tests_cant": "a check-then-act race shows only under particular schedules", "anchors": ["gossiper/Interface.go:325-412", "gossiper/Interface.go:227-256"]}
{"id": "C22", "title": "The fragments behind a FULL object come from different gossipers", "statement": "The Threshold fragments a gossiper aggregates into a FULL object were made by Threshold different gossipers.", "quantifier": "every history of received fragments and accusations", "why_tests_cant": "all adversarial histories", "anchors": ["gossiper/gossiper_server.go:331-363", "gossiper/gossiper_server.go:294-316", "gossiper/gen.go:11-28", "gossiper/gen.go:47-80", "gossiper/Interface.go:325-412"]}
{"id": "C23", "title": "INIT objects are ignored once the FULL object or enough fragments are held", "statement": "If a gossiper holds the FULL object, or Threshold fragments, for an entity and period, a later INIT object for that entity and period is ignored.", "quantifier": "every reachable state", "why_tests_cant": "a guard that can never fire looks like correct code in any single test", "anchors": ["gossiper/gossiper_server.go:210-251", "gossiper/gossiper_server.go:253-292", "gossiper/gossiper_server.go:294-316", "gossiper/Interface.go:455-527"]}
{"id": "C24", "title": "Newly stored statements are forwarded exactly once to everyone", "statement": "Handling an STH_INIT, REV_INIT or CON_INIT that gets stored sends it (or, for a large REV_INIT, its notification) to every connected gossiper once and to the owner monitor once; a stored ACC_INIT is itself sent to nobody.", "quantifier": "every state and object", "why_tests_cant": "all states and topologies", "anchors": ["gossiper/gossiper_server.go:210-251", "gossiper/gossiper_server.go:253-292", "gossiper/gossiper_server.go:318-329", "gossiper/gossiper_server.go:294-316", "gossiper/gossiper_server.go:449-533", "gossiper/gossiper_server.go:534-560"]}
{"id": "C25", "title": "Invalid objects are not propagated", "statement": "An object that fails verification is neither stored nor forwarded to other gossipers nor passed to the owner monitor.", "quantifier": "every failing object and state", "why_tests_cant": "all malformed objects", "anchors": ["gossiper/gossiper_server.go:180-208", "gossiper/gossiper_server.go:331-363", "gossiper/gossiper_server.go:365-380", "gossiper/Interface.go:125-225", "gossiper/Interface.go:227-256"]}
{"id": "C26", "title": "A gossiper signs only statements it has verified and stored", "statement": "Every fragment a gossiper signs is over the payload of an INIT object that verified and was stored by it, and at the moment of signing the entity is not blacklisted.", "quantifier": "every history and every timer firing", "why_tests_cant": "all histories", "anchors": ["gossiper/gossiper_server.go:210-251", "gossiper/gossiper_server.go:253-292", "gossiper/gossiper_server.go:294-316", "gossiper/gen.go:11-28"]}
{"id": "C27", "title": "Enough honest fragments yield a FULL object", "statement": "If a gossiper handles fragments by at least Threshold different registered gossipers over one payload, with that entity not blacklisted, it ends up holding a verifying FULL object for the entity and has sent it to its owner.", "quantifier": "every threshold, every set of signers, every arrival order, every other traffic", "why_tests_cant": "all orders and interleaved garbage", "anchors": ["gossiper/gossiper_server.go:331-363", "gossiper/gossiper_server.go:365-380", "gossiper/gen.go:47-80"]}
{"id": "C28", "title": "Wiping keeps evidence and forgets the period", "statement": "WipeStorage keeps the conflict proofs and the blacklist exactly and empties every other store; afterwards every object of the old period is treated as new.", "quantifier": "every state", "why_tests_cant": "all states", "anchors": ["gossiper/Interface.go:629-639"]}
{"id": "C29", "title": "The first FULL object for a statement wins", "statement": "Once a gossiper holds a FULL object for (period, type, entity), no later message replaces it before the next wipe.", "quantifier": "every later sequence of sequentially handled messages; concurrent schedules", "why_tests_cant": "all futures and schedules", "anchors": ["gossiper/gossiper_server.go:365-380", "gossiper/Interface.go:125-225"]}
{"id": "C30", "title": "Payload stripping is transparent", "statement": "A REV_FRAG sent with its payload stripped is restored by a receiver to exactly the fragment that was sent.", "quantifier": "every fragment and receiver state", "why_tests_cant": "arrival order of payload and fragment", "anchors": ["gossiper/gen.go:30-34", "gossiper/gen.go:36-45", "gossiper/gossiper_server.go:449-533", "gossiper/gossiper_server.go:146-178"]}
{"id": "C31", "title": "Payload requests are served only with verified revocations", "statement": "A payload request is answered exactly when a REV_INIT of the requested period and entity is held, and then with that object, which verifies; a notification triggers a request exactly when no object with the notified hash is held for the notified period and entity.", "quantifier": "every state and request", "why_tests_cant": "all states", "anchors": ["gossiper/gossiper_server.go:98-144", "gossiper/gossiper_server.go:49-96", "gossiper/Interface.go:54-68", "gossiper/Interface.go:70-78", "gossiper/Interface.go:43-52"]}
{"id": "C32", "title": "The gossip log reports the true counts", "statement": "Save writes a log entry exactly when some INIT, CON, FRAG or FULL store or the blacklist is non-empty (the payload cache is not counted), and its counters equal the number of objects held; between wipes stores only grow.", "quantifier": "every reachable state", "why_tests_cant": "all histories", "anchors": ["gossiper/Interface.go:80-116", "gossiper/Interface.go:35-41"]}
{"id": "C33", "title": "Traffic counters are exact", "statement": "The received-traffic counter is the sum of the Content-Length values of all decoded requests and the sent-traffic counter is the sum of the sizes of all bodies posted to other gossipers, independently of the order of handling.", "quantifier": "every history", "why_tests_cant": "all orders of updates", "anchors": ["gossiper/gossiper_server.go:146-178", "gossiper/gossiper_server.go:449-533", "gossiper/gossiper_server.go:49-96", "gossiper/gossiper_server.go:98-144"]}
{"id": "C34", "title": "Aggregation never crashes the gossiper", "statement": "With the bls scheme configured, aggregating at the threshold never panics.", "quantifier": "every history; every interleaving with wipes", "why_tests_cant": "a crash needs a wipe between two instructions", "anchors": ["gossiper/gossiper_server.go:331-363", "gossiper/gen.go:47-80", "gossiper/Interface.go:629-639"]}
{"id": "C35", "title": "Handlers run in isolation behave as the sequential specification", "statement": "A handler goroutine that is not interrupted has exactly the effect of the sequential handler function, for every object and state.", "quantifier": "every state and object", "why_tests_cant": "links the two models for all inputs", "anchors": ["gossiper/gossiper_server.go:180-208"]}
{"id": "C36", "title": "Concurrent equivocation is detected", "statement": "If two conflicting verifying STH_INITs of one signer are delivered concurrently, the entity ends up blacklisted under every schedule.", "quantifier": "every schedule of two handler goroutines", "why_tests_cant": "needs a particular interleaving", "anchors": ["gossiper/gossiper_server.go:210-251", "gossiper/Interface.go:613-627", "gossiper/Interface.go:125-225"]}
{"id": "C37", "title": "Conflict proofs reach every gossiper", "statement": "In a fully connected network of gossipers sharing the same keys, once no message is in flight, if one gossiper has blacklisted an entity on a conflict proof then all have blacklisted it.", "quantifier": "every number of gossipers, every delivery order, every interleaving of wipes and timers", "why_tests_cant": "distributed property over all executions", "anchors": ["gossiper/gossiper_server.go:318-329", "gossiper/gossiper_server.go:449-533", "gossiper/Interface.go:125-225"]}
{"id": "C38", "title": "Statements flood the network", "statement": "In a fully connected network of gossipers, once no message is in flight, if one gossiper holds a verified STH_INIT of the current round then every gossiper holds an STH_INIT for the same period and entity or has blacklisted the entity.", "quantifier": "every number of gossipers, every delivery order between wipes", "why_tests_cant": "distributed property over all executions", "anchors": ["gossiper/gossiper_server.go:210-251", "gossiper/gossiper_server.go:449-533"]}
{"id": "C39", "title": "A monitor accepts from its gossiper only verified objects", "statement": "Every object a monitor keeps verifies under its crypto configuration.", "quantifier": "every sequence of received objects", "why_tests_cant": "all adversarial inputs", "anchors": ["monitor/monitor.go:43-65", "monitor/monitor.go:474-491", "monitor/types.go:209-268"]}
{"id": "C40", "title": "Monitor storage returns what was stored", "statement": "After StoreObject(id, g), GetObject(id) returns g, other ids are unaffected, an identical second delivery changes nothing, and GetObjectNumber(type) is the number of ids of the type for which GetObject returns an object.", "quantifier": "every id, object and store", "why_tests_cant": "all stores", "anchors": ["monitor/types.go:75-87", "monitor/types.go:209-268", "monitor/types.go:165-201", "monitor/types.go:202-207", "monitor/monitor.go:43-65"]}
{"id": "C41", "title": "Proofs of misbehaviour are never dropped by a monitor", "statement": "Accusation and conflict proofs held by a monitor are kept through every later message and periodic wipe.", "quantifier": "every history", "why_tests_cant": "unbounded futures", "anchors": ["monitor/types.go:271-297", "monitor/types.go:88-112", "monitor/types.go:209-268"]}
{"id": "C42", "title": "The periodic wipe keeps exactly the current period", "statement": "After the periodic wipe the threshold-signed tree heads and revocations kept are exactly those held before whose period is the current one, and the temporary store is empty.", "quantifier": "every store", "why_tests_cant": "all stores", "anchors": ["monitor/types.go:271-297"]}
{"id": "C43", "title": "A client update contains exactly what the monitor holds", "statement": "The update generated for a period lists every stored threshold-signed tree head, revocation and proof of misbehaviour of the current storages exactly once and nothing else.", "quantifier": "every store", "why_tests_cant": "all stores and map iteration orders", "anchors": ["monitor/monitor.go:413-439", "monitor/monitor.go:441-470"]}
{"id": "C44", "title": "Entities with a conflict proof are excluded from the update", "statement": "When the monitor holds a conflict proof against an entity, the next generated update carries no tree head or revocation of that entity.", "quantifier": "every history", "why_tests_cant": "all histories and periods", "anchors": ["monitor/types.go:88-112", "monitor/monitor.go:373-393", "monitor/monitor.go:441-470", "gossiper/gen.go:82-93"]}
{"id": "C45", "title": "Accusations are well-formed and only made in absence of data", "statement": "A monitor accuses an entity only if at the end of the waiting time it holds neither a proof of misbehaviour against it nor a statement from it for the current period, and the accusation it sends verifies.", "quantifier": "every state at the end of the wait", "why_tests_cant": "timing dependent", "anchors": ["monitor/monitor.go:316-340", "monitor/monitor.go:289-314", "monitor/monitor.go:373-393"]}
{"id": "C46", "title": "Honest responsive entities are not accused", "statement": "If the monitor has obtained the current statement of an entity, it does not accuse it, at any minute of the hour.", "quantifier": "every minute, every entity", "why_tests_cant": "depends on the wall clock", "anchors": ["monitor/monitor.go:316-340", "monitor/monitor.go:134-173", "monitor/monitor.go:230-284", "util/helpers.go:116-118", "CA/server.go:337-440", "Logger/buildmerkle.go:14-51"]}
{"id": "C47", "title": "A revocation is accepted only if its SRH is signed over the resulting state", "statement": "VerifySRH accepts exactly when the SRH is a valid signature, by the key registered for the id inside it, over the hash of period, hash of the known revocation vector and hash of the delta.", "quantifier": "every stored vector, delta, period and signature", "why_tests_cant": "iff over all inputs", "anchors": ["monitor/monitor.go:493-521", "client/client.go:101-128"]}
{"id": "C48", "title": "Revocation vectors accumulate all published deltas", "statement": "After processing deltas D1..Dk of a CA, a monitor's and a client's revocation vector for this CA has exactly the bits of their union.", "quantifier": "every sequence of deltas", "why_tests_cant": "unbounded sequences", "anchors": ["monitor/types.go:209-268", "client/client.go:130-208"]}
{"id": "C49", "title": "A rejected update leaves the client usable", "statement": "If HandleUpdate rejects an update, the client's databases are unchanged and a later update can still be processed.", "quantifier": "every update and client state", "why_tests_cant": "all failing prefixes", "anchors": ["client/client.go:130-208"]}
{"id": "C50", "title": "An accepted update was fully verified", "statement": "If HandleUpdate (with verification on) returns true then every revocation, tree head and proof in it verified, and every revocation passed VerifySRH.", "quantifier": "every update and client state", "why_tests_cant": "all mixtures of valid and invalid items", "anchors": ["client/client.go:130-208"]}
{"id": "C51", "title": "Certificate acceptance equals its specification", "statement": "VerifyCTngextension accepts a certificate exactly when at least one embedded logger entry is good (tree head verifies, signer not in the proof database, root hash equals the stored one, inclusion proof verifies) and the certificate's revocation bit is not set; it never changes the client.", "quantifier": "every certificate, extension and client state", "why_tests_cant": "iff over all inputs", "anchors": ["client/client.go:210-273"]}
{"id": "C52", "title": "A published revocation is effective at the client", "statement": "Once an accepted update contains a delta with bit r of a CA, the client rejects that CA's certificate with revocation id r from then on.", "quantifier": "every later history of accepted updates", "why_tests_cant": "unbounded futures", "anchors": ["client/client.go:130-208", "client/client.go:210-273"]}
{"id": "C53", "title": "Misbehaving loggers do not vouch for certificates", "statement": "A logger entry whose logger has a proof of misbehaviour in the client's database never counts towards acceptance.", "quantifier": "every certificate and database", "why_tests_cant": "all embedded tree heads", "anchors": ["client/client.go:210-273"]}
{"id": "C54", "title": "Certificates of one CA get unique consecutive revocation ids", "statement": "The revocation ids of all leaf certificates a CA ever issues are pairwise different and consecutive, over all issuing rounds.", "quantifier": "every number of rounds and sizes", "why_tests_cant": "unbounded histories", "anchors": ["CA/ca.go:20-68", "CA/ca.go:115-121", "CA/types.go:172-176"]}
{"id": "C55", "title": "Revocation is monotone and exact", "statement": "Revoke(i) sets exactly bit i; a set bit is never cleared by any later operation; MassRevoke sets exactly the listed bits.", "quantifier": "every sequence of revocations", "why_tests_cant": "unbounded sequences", "anchors": ["CA/CRV.go:82-84", "CA/CRV.go:86-92", "CA/CRV.go:44-50"]}
{"id": "C56", "title": "Applying the published delta to the old vector gives the new one", "statement": "In each period the delta a CA publishes, applied to the vector of the previous period, yields its current vector.", "quantifier": "every sequence of periods and revocations", "why_tests_cant": "unbounded histories, pointer aliasing", "anchors": ["CA/CRV.go:53-67", "CA/CRV.go:94-146", "CA/server.go:337-440"]}
{"id": "C57", "title": "Honest CA revocations pass verification everywhere", "statement": "For every sequence of periods and revocations of an honest CA, each published revocation verifies as a gossip object and passes VerifySRH at a monitor that has processed all earlier ones.", "quantifier": "every sequence of periods", "why_tests_cant": "unbounded histories of two interacting programs", "anchors": ["CA/CRV.go:94-146", "monitor/monitor.go:493-521", "monitor/types.go:209-268"]}
{"id": "C58", "title": "Honest CAs and loggers do not equivocate", "statement": "A CA or logger of the honest type answers every request in a period with the same stored object; the misbehaving test types deviate exactly on the configured requests.", "quantifier": "every sequence of requests", "why_tests_cant": "unbounded request counts", "anchors": ["CA/server.go:134-210", "Logger/server.go:46-109"]}
{"id": "C59", "title": "The statement built for a period is served in that period", "statement": "The revocation or tree head built ahead for the next minute is the one served when that minute comes.", "quantifier": "every minute of the hour", "why_tests_cant": "wall clock wrap-around", "anchors": ["CA/server.go:337-440", "CA/server.go:319-326", "Logger/server.go:201-254", "Logger/server.go:46-109"]}
{"id": "C60", "title": "Certificate extensions hold at most one entry per logger and lose nothing", "statement": "UpdateCTngExtension keeps existing entries in order, adds the new one exactly when no entry with the same tree-head signer exists, and encoding then decoding gives the same extension.", "quantifier": "every sequence of updates", "why_tests_cant": "unbounded sequences", "anchors": ["CA/types.go:127-142", "CA/types.go:93-109", "CA/types.go:111-125"]}
{"id": "C61", "title": "Inclusion proofs are complete", "statement": "For every non-trivial list of certificates, each proof generated by the Merkle code verifies against the root for its certificate.", "quantifier": "every list length and content", "why_tests_cant": "all tree shapes", "anchors": ["crypto/MerkleTree.go:55-58", "crypto/MerkleTree.go:64-67", "crypto/MerkleTree.go:69-72"]}
{"id": "C62", "title": "Inclusion proofs are sound", "statement": "If a proof of the tree's depth verifies against the root for some data, the data is one of the leaves or a hash collision is exhibited.", "quantifier": "every proof and tree", "why_tests_cant": "negative property over all proofs", "anchors": ["crypto/MerkleTree.go:69-72"]}
{"id": "C63", "title": "A tree root binds the certificates and their number", "statement": "Different certificate lists have different roots (up to hash collisions), and an inclusion proof for a certificate is not valid for a different certificate.", "quantifier": "every pair of lists and certificates", "why_tests_cant": "negative property over all pairs", "anchors": ["crypto/MerkleTree.go:14-20", "crypto/MerkleTree.go:60-63", "Logger/buildmerkle.go:14-51"]}
{"id": "C64", "title": "A logger survives every round", "statement": "Building the tree for a period succeeds for every number of received pre-certificates.", "quantifier": "every number of pre-certificates", "why_tests_cant": "edge sizes 0 and 1", "anchors": ["Logger/server.go:201-254", "Logger/buildmerkle.go:14-51"]}
{"id": "C65", "title": "A logger logs only pre-certificates of known CAs", "statement": "A pre-certificate enters the log only if it was issued by a CA on the logger's list.", "quantifier": "every submitted certificate", "why_tests_cant": "all adversarial submissions", "anchors": ["Logger/server.go:112-129", "Logger/Types.go:72-90"]}
{"id": "C66", "title": "CertPool indices are always valid", "statement": "In every pool built by adds and updates, all indices in the lookup tables point into the certificate list, so lookups never go out of range, and the by-key lookup returns the first certificate added with that key id (until it is replaced).", "quantifier": "every sequence of operations", "why_tests_cant": "unbounded sequences", "anchors": ["crypto/certpool.go:83-103", "crypto/certpool.go:145-156", "crypto/certpool.go:175-186", "crypto/certpool.go:52-65"]}
{"id": "C67", "title": "CertPool keeps every distinct certificate and no duplicates", "statement": "Adding a certificate equal to one in the pool changes nothing; adding a different certificate makes it present; the number of certificates is the number of different ones added.", "quantifier": "every sequence of adds", "why_tests_cant": "unbounded sequences", "anchors": ["crypto/certpool.go:83-103", "crypto/certpool.go:67-80", "util/IO.go:176-192"]}
{"id": "C68", "title": "Generated network addresses are unique", "statement": "For up to 1000 entities per role, all generated URLs of CAs, loggers, gossipers and monitors are pairwise different.", "quantifier": "every number of entities", "why_tests_cant": "all sizes", "anchors": ["Gen/Gen.go:27-37", "Gen/Gen.go:70-86"]}
{"id": "C69", "title": "Generated topology is complete", "statement": "Each generated gossiper is connected to every other gossiper exactly once and not to itself, and each CA is given two of the generated loggers.", "quantifier": "every network size", "why_tests_cant": "all sizes", "anchors": ["Gen/Gen.go:203-224", "Gen/Gen.go:88-110"]}
{"id": "C70", "title": "Address mapping keeps ports and uses the right host", "statement": "Mapping local URLs to IPs keeps each entity's port and uses the IP of the entity named.", "quantifier": "every configuration", "why_tests_cant": "all configurations", "anchors": ["Gen/IPmapping.go:253-286"]}
{"id": "C71", "title": "Crypto configurations round-trip through disk", "statement": "Loading a stored crypto configuration gives back the configuration that was stored.", "quantifier": "every configuration", "why_tests_cant": "all configurations", "anchors": ["crypto/crypto_IO.go:116-131", "crypto/crypto_IO.go:135-157"]}
{"id": "C72", "title": "Period strings identify the minute", "statement": "GetCurrentPeriod is always two digits equal to the minute of the clock, and the period string used by CA and logger for the same minute is the same string.", "quantifier": "every instant", "why_tests_cant": "every instant of the clock", "anchors": ["util/helpers.go:116-118", "util/helpers.go:103-106", "CA/server.go:319-326", "Logger/buildmerkle.go:14-51"]}
{"id": "C73", "title": "Bit vectors round-trip through bytes", "statement": "BytesToBits and BitsToBytes are inverse to each other on whole bytes.", "quantifier": "every byte string", "why_tests_cant": "all byte strings", "anchors": ["util/helpers.go:22-32", "util/helpers.go:34-44"]}
{"id": "C74", "title": "Random revocation positions are distinct and in range", "statement": "GenerateRandomBitPositions returns the requested number of pairwise different positions below the total, for every random source for which it terminates.", "quantifier": "every random stream", "why_tests_cant": "all random streams", "anchors": ["CA/CRV.go:16-30"]}
{"id": "C75", "title": "Every logged certificate gets its proof of inclusion", "statement": "At the end of a period a logger posts, to the issuer of each certificate in its log, a proof of inclusion for that certificate that verifies against the tree head it signed, and nothing else.", "quantifier": "every history of submitted pre-certificates", "why_tests_cant": "The posted set depends on the whole pool of the period; the failing case needs a repeated key id at an earlier index, which tests with fresh keys never produce.", "anchors": ["Logger/server.go:161-180", "Logger/buildmerkle.go:14-51", "crypto/certpool.go:145-156"]}
{"id": "C76", "title": "Statements of honest authorities verify everywhere", "statement": "Every tree head a logger builds and every revocation a CA builds passes Gossip_object.Verify at any party that holds the author's public key under the author's name.", "quantifier": "every set of certificates, every revocation vector, every period", "why_tests_cant": "Quantifies over all payload contents and all verifiers' key maps.", "anchors": ["Logger/buildmerkle.go:14-51", "CA/CRV.go:94-146", "definition/Verify.go:70-114"]}
{"id": "C79", "title": "A signed revocation hash speaks for its CA", "statement": "VerifySRH for a CA succeeds only if the signature inside the SRH was made with that CA's key.", "quantifier": "every SRH, delta, CA, period and key map", "why_tests_cant": "Tests only present SRHs made by the right CA; the claim is about every other registered key.", "anchors": ["client/client.go:101-128", "monitor/types.go:262-290"]}
{"id": "C81", "title": "A restarted client keeps what it knew", "statement": "After saving its databases and restarting with a status other than NEW, a client has the same tree heads, revocation vectors and proofs of misbehaviour.", "quantifier": "every client state", "why_tests_cant": "All database contents; the loss shows only in later certificate checks.", "anchors": ["client/types.go:46-135"]}
{"id": "C82", "title": "Clients distrust only on proof", "statement": "An entity is in a client's proof database only if a verified accusation or conflict proof names it.", "quantifier": "every history of updates from any monitors", "why_tests_cant": "All object types in the proof lists, all histories.", "anchors": ["client/client.go:183-206"]}
{"id": "C83", "title": "Recorded roots are endorsed by a threshold", "statement": "A root hash is in a client's tree-head database only if it comes from a STH_FULL object whose threshold signature verified.", "quantifier": "every history of updates from any monitors", "why_tests_cant": "All object types in the tree-head list, all histories.", "anchors": ["client/client.go:158-181"]}
{"id": "C84", "title": "An accepted certificate was logged", "statement": "If a client accepts a certificate then this certificate is a leaf of the tree whose root the client recorded.", "quantifier": "every certificate and client state", "why_tests_cant": "Soundness over all forged certificates and proofs.", "anchors": ["client/client.go:210-273", "crypto/MerkleTree.go:14-72"]}
{"id": "C85", "title": "Honest revocations distributed by the gossipers pass at clients", "statement": "A revocation published by an honest CA, once relabelled REV_FULL by the threshold of gossipers, passes the revocation-hash check of every client that applied all earlier revocations of that CA.", "quantifier": "every history of an honest CA and every publication time", "why_tests_cant": "All publication instants and revocation histories; failures depend on the minute of the hour.", "anchors": ["gossiper/gossiper_server.go:253-292", "gossiper/gossiper_server.go:331-380", "gossiper/gen.go:11-80", "CA/server.go:406-419", "client/client.go:101-156"]}
{"id": "C77", "title": "A logged certificate is accepted", "statement": "A certificate that an honest CA issues, an honest logger includes in its tree, and the CA signs after receiving the logger's tree head and proof is accepted by every client that recorded the logger's root for that period, holds no proof of misbehaviour against the logger and does not have the certificate revoked.", "quantifier": "every number of certificates, every interleaving of other messages at the CA during the round, every minute, every client state", "why_tests_cant": "All interleavings and minutes; the failures depend on the minute of the hour.", "anchors": ["CA/server.go:213-263", "CA/server.go:300-317", "CA/types.go:127-153", "Logger/server.go:207-252", "client/client.go:210-273"]}
{"id": "C86", "title": "Only genuine proofs of inclusion are embedded", "statement": "Every logger entry that the CA embeds in a certificate consists of a tree head the CA verified and a proof of inclusion of this certificate under that tree head.", "quantifier": "every history of messages at the CA", "why_tests_cant": "All histories, including messages from anyone who can reach the CA.", "anchors": ["CA/server.go:213-263", "CA/types.go:127-153"]}
{"id": "C87", "title": "Generated key material fits together", "statement": "In a generated deployment every entity's key file carries that entity's id; what any entity signs with its key file, every other entity accepts, and every entity accepts the signature fragments of every gossiper.", "quantifier": "every number of CAs, loggers, monitors and gossipers, every message, every pair of entities, any key generator", "why_tests_cant": "All sizes of deployment and all messages; the test generates one fixed deployment and checks nothing about it.", "anchors": ["crypto/crypto_IO.go:19-62", "crypto/bls.go:30-63", "Gen/Gen.go:226-300", "Gen/Gen.go:302-430"]}
{"id": "C88", "title": "Verify-only configurations give the same verdict", "statement": "A client that loads the verify-only form of a saved crypto configuration reaches the same verdict on every gossip object as the owner of the configuration, and holds neither secret key.", "quantifier": "every configuration, every gossip object", "why_tests_cant": "All configurations and all objects.", "anchors": ["crypto/crypto_IO.go:92-101", "crypto/crypto_IO.go:159-176", "client/types.go:115-120"]}
{"id": "C89", "title": "The address mapping keeps the key material", "statement": "After mapping a generated deployment to IP addresses, the id in every entity's key file is that entity's IP and port, no two entities share an id, and the key files still fit together as in C87.", "quantifier": "every deployment within the port range, every IP table (also incomplete ones and ones where entities share an IP)", "why_tests_cant": "All tables and sizes.", "anchors": ["Gen/IPmapping.go:79-171", "Gen/IPmapping.go:400-444"]}
{"id": "C90", "title": "Revocation updates of any size flood the network", "statement": "In a fully connected network of gossipers, between wipes and once no message is in flight, if one gossiper holds a verified REV_INIT then every gossiper holds a REV_INIT for the same period and entity or has blacklisted the entity, also when the object is over the optimisation threshold and is only announced by a notification and handed out on request.", "quantifier": "every number of gossipers, every object size, every interleaving of deliveries and goroutines between wipes, arbitrary posts from outside", "why_tests_cant": "distributed property over all executions of a three-message protocol with caches", "anchors": ["gossiper/gossiper_server.go:49-165", "gossiper/gossiper_server.go:449-478", "gossiper/Interface.go:43-78"]}
{"id": "C91", "title": "A statement seen by one gossiper is threshold-signed at all of them", "statement": "If one running gossiper holds an STH or revocation update of a period, at least Threshold gossipers are running, nobody equivocated, the timers have run and no message is under way, then every running gossiper holds a FULL object with that payload, which verifies and was sent to its owner.", "quantifier": "every number of gossipers, every order of messages, timers and posts from outside, every set of crashed gossipers", "why_tests_cant": "Liveness of a distributed protocol over all interleavings and network sizes; the failure needs two copies of one fragment handled at the same time.", "anchors": ["gossiper/gossiper_server.go:210-292", "gossiper/gossiper_server.go:331-380", "gossiper/gossiper_server.go:449-560", "gossiper/gen.go:11-80"]}
{"id": "C92", "title": "Enough accusations blacklist the accused everywhere", "statement": "If at least Threshold gossipers hold an accusation of an entity for a period and no message is under way, then every running gossiper has blacklisted the entity.", "quantifier": "every number of gossipers, every order of messages and posts from outside", "why_tests_cant": "All interleavings and network sizes.", "anchors": ["gossiper/gossiper_server.go:294-316", "gossiper/gossiper_server.go:331-380"]}
{"id": "C93", "title": "Fragments are ignored once the FULL object is held", "statement": "If a gossiper holds the FULL object or Threshold fragments for an entity and period, a later fragment about that entity and period is neither kept nor forwarded.", "quantifier": "every reachable gossiper state, every fragment", "why_tests_cant": "The check exists but looks in the wrong place; only states that hold the FULL object without the fragments show it.", "anchors": ["gossiper/gossiper_server.go:331-363", "gossiper/Interface.go:227-256"]}
{"id": "C94", "title": "Convergence times mean convergence", "statement": "When a gossiper records a convergence time it holds an outcome (FULL object or conflict proof) for every logger and CA, the time is the second at which that became true in this period, and the log entry of a period carries a convergence time only if the gossiper converged in that period; likewise for first statements and the initial convergence time.", "quantifier": "every reachable state and event", "why_tests_cant": "Depends on the history across periods and on which objects make up a count.", "anchors": ["gossiper/Interface.go:580-611", "gossiper/Interface.go:144-192", "gossiper/gossiper_server.go:374-377"]}
{"id": "C78", "title": "Every proof a monitor receives reaches its clients", "statement": "Every proof of misbehaviour, threshold-signed tree head and revocation delivered to a monitor is listed in some client update the monitor writes, provided periods keep ending.", "quantifier": "every history of monitor events, every object", "why_tests_cant": "Needs the position of a delivery relative to the period ends before and after it; the loss shows only as an absence in all later updates.", "anchors": ["monitor/monitor.go:460-469", "monitor/types.go:271-297", "monitor/types.go:202-268", "monitor/monitor.go:43-65"]}
{"id": "C80", "title": "A client can fetch the update its monitor wrote", "statement": "FetchClientUpdate at the monitor's get-update address returns, without error, the client update the monitor wrote for the requested period; and the file of an update loads back as the update that was written.", "quantifier": "every monitor history (any bytes received), every set of files, every request", "why_tests_cant": "The test data are loaded from files; no test goes through the HTTP handler, whose reply has a different shape for every update.", "anchors": ["monitor/client-update-monitor.go:29-56", "client/client.go:24-33", "client/client.go:83-99", "client/types.go:102-112", "util/IO.go:37-59"]}
{"id": "C95", "title": "The wire is transparent", "statement": "Whatever bytes are posted to the nodes, every object and notification a gossiper or monitor sends is decoded by its receiver as exactly the object that was sent, with its exact content length, so that a network exchanging bytes behaves as one exchanging objects.", "quantifier": "every network configuration, every history of posts with any path, claimed length and bytes, every schedule and delivery order", "why_tests_cant": "Needs all strings that can enter an object, including ones with escapes, invalid UTF-8 and foreign fields, through several hops.", "anchors": ["gossiper/gossiper_server.go:28-159", "gossiper/gossiper_server.go:449-533", "monitor/monitor.go:43-47", "monitor/monitor.go:343-361", "definition/Types.go:3-14"]}
{"id": "C96", "title": "Rejected requests change nothing", "statement": "A request that a gossiper or a monitor answers with an error status for a malformed body or an unknown path leaves its state unchanged.", "quantifier": "every state, path, content length and body", "why_tests_cant": "Depends on bodies that decode halfway: valid JSON whose fields have the wrong type.", "anchors": ["gossiper/gossiper_server.go:50-62", "gossiper/gossiper_server.go:97-110", "gossiper/gossiper_server.go:146-156", "monitor/monitor.go:43-65"]}
{"id": "C97", "title": "GetRootHash returns the root hashes", "statement": "GetRootHash on the tree heads of a client update returns the root hash of each of them, in order.", "quantifier": "every list of tree heads made by loggers", "why_tests_cant": "The only test is disabled and checks nothing.", "anchors": ["client/parser.go:31-50", "Logger/buildmerkle.go:14-51"]}
{"id": "C98", "title": "Every period's update stays available", "statement": "The client update a monitor writes at the end of the n-th period after its start is filed under the number n and is not overwritten by the update of another period.", "quantifier": "all start times, all clocks and all histories of a monitor, over any number of periods", "why_tests_cant": "A test runs for a few minutes; the directory number is computed from the minute of the hour, so only histories that cross or exceed an hour show the collision.", "anchors": ["monitor/monitor.go:460-468", "monitor/types.go:114-132"]}
{"id": "C99", "title": "Loading a stored list restores it", "statement": "LoadOneStorage files every object of the list under its id in the named storage only, the last one winning, leaves the other storages alone, and returns nil exactly when the list was loaded.", "quantifier": "all storage names, all lists (including repeated ids and objects of other types) and all previous contents", "why_tests_cant": "The existing tests ignore the returned error and load one file; repeated ids, wrong types and prior contents form an unbounded space.", "anchors": ["monitor/types.go:134-163"]}
{"id": "C100", "title": "Fragments flood between concurrent gossipers", "statement": "In a round in which nobody equivocated and no fragment was forged: once no message is under way and no goroutine has work left, every fragment a running gossiper keeps is kept, with the same signature, by every running gossiper that has fewer than Threshold fragments and has not blacklisted the entity; and every running gossiper with Threshold fragments holds a FULL object with the payload, which verifies and was sent to its owner, or has blacklisted the entity.", "quantifier": "every number of gossipers, every interleaving of their goroutines, timers, messages and posts from outside, every set of crashed gossipers", "why_tests_cant": "Liveness over all interleavings of program points at all gossipers; it rests on no goroutine dying between keeping a fragment and posting it.", "anchors": ["gossiper/gossiper_server.go:331-361", "gossiper/gossiper_server.go:363-380", "gossiper/gossiper_server.go:449-533", "gossiper/Interface.go:227-290"]}
{"id": "C101", "title": "Only the owner is taken for the owner", "statement": "IsOwner returns true exactly when the host of the caller's address is the host of the configured owner (localhost and [::1] being one host); ports do not matter.", "quantifier": "all pairs of address strings", "why_tests_cant": "The result depends on substrings anywhere in the address and on colons inside IPv6 addresses; sampling addresses misses the confusing ones.", "anchors": ["util/helpers.go:86-101"]}
{"id": "C102", "title": "Possible issuers and PEM files of a certificate pool", "statement": "After any sequence of additions and replacements the possible issuers of a certificate are exactly the pool entries added under its authority key id, or, if there are none, those added with its issuer name as subject; AppendCertsFromPEM adds exactly the certificates of the text in order and reports whether there were any.", "quantifier": "all operation sequences on a pool, all certificates, all PEM texts", "why_tests_cant": "The two indices must stay consistent with the certificate list after every sequence of operations, and a PEM text may interleave any number of other or broken blocks.", "anchors": ["crypto/certpool.go:50-65", "crypto/certpool.go:105-132"]}
{"id": "C103", "title": "Every CA gets every tree head", "statement": "A logger makes exactly one tree head per ended period; each CA on its list is sent all of them in order and nothing else, and the heads kept for the monitors are among them under their own period.", "quantifier": "all histories of submissions, requests and period ends, all CA lists without repetition", "why_tests_cant": "Whether CAs and monitors can ever be given different heads depends on every history, not on one period with one CA.", "anchors": ["Logger/server.go:131-145", "Logger/server.go:207-252"]}
{"id": "C104", "title": "Threshold keys belong to their entities", "statement": "Key generation gives every listed entity secret keys of its own: no two entities share a key, and no set of other entities can compute an entity's threshold key from theirs.", "quantifier": "all entity lists without repetition, all thresholds, all outputs of the random generator", "why_tests_cant": "Tests generate one set of keys and check that signatures verify; which keys are functions of which others is a property of the generation procedure for every list and threshold.", "anchors": ["crypto/bls.go:29-63", "crypto/crypto_IO.go:19-62"]}
{"id": "C105", "title": "Split views are exposed", "statement": "If a logger shows different signed tree heads for one period to different gossipers of a fully connected network, then once the network is quiet every running gossiper has blacklisted the logger and sent its monitor a verifying conflict proof, whatever the order of arrivals, goroutines and timers.", "quantifier": "all networks of at least two gossipers with the same keys, all histories in which each gossiper is shown one version, all interleavings of goroutines, deliveries and timers", "why_tests_cant": "The claim is about every interleaving of the two floods with handlers that check and store in separate steps; a test sees one interleaving.", "anchors": ["gossiper/gossiper_server.go:180-251", "gossiper/gossiper_server.go:318-329", "gossiper/Interface.go:613-627", "gossiper/gossiper_server.go:449-560"]}
{"id": "C106", "title": "Gossip comes to rest", "statement": "A gossiper forwards the tree head of one entity and period at most once until the next wipe, so a finite number of posts from outside causes a finite number of messages.", "quantifier": "all histories of a gossiper, all pairs of gossipers, all numbers of deliveries", "why_tests_cant": "That messages keep circulating forever is a property of infinite runs; a test stops after finitely many deliveries and cannot tell a long flood from an endless one.", "anchors": ["gossiper/gossiper_server.go:180-251", "gossiper/Interface.go:258-322", "gossiper/Interface.go:613-627"]}
{"id": "C107", "title": "Certificates and keys survive the disk", "statement": "A certificate or RSA key saved with SaveCertificateToDisk or SaveKeyToDisk is read back unchanged by ReadCertificateFromDisk or ReadKeyFromDisk, byte for byte and for every length, whatever is saved under other paths before or after.", "quantifier": "all certificates and keys, all paths, all contents of the disk, all later writes to other paths", "why_tests_cant": "The PEM text depends on the length modulo 3 and modulo 48 and on every byte; tests try a few certificates.", "anchors": ["util/IO.go:139-174", "util/IO.go:194-253"]}
{"id": "C108", "title": "Reading a certificate file gives a certificate", "statement": "ReadCertificateFromDisk returns the content of the first CERTIFICATE block of the file and an error if there is none.", "quantifier": "all files, all paths", "why_tests_cant": "Tests read files they have written with the matching function; the claim is about every text, including files with other blocks.", "anchors": ["util/IO.go:194-218"]}
{"id": "C109", "title": "Cleaning up removes exactly the storage directory", "statement": "DeleteFilesAndDirectories of a directory, given by any path string ending in a name, removes the directory and everything below it at any depth, leaves everything else, and returns nil; given by a path ending in . or .. it removes what is below the directory, keeps the directory and returns an error; on anything but a directory it changes nothing and returns an error.", "quantifier": "all file trees, all path strings, all working directories, all orders of directory listings", "why_tests_cant": "The function recurses over trees of any depth and order; a test creates one tree, and does not look at what was not supposed to be removed.", "anchors": ["util/IO.go:86-124", "gossiper/Interface.go:641-647", "monitor/types.go:304-310"]}
{"id": "C110", "title": "A monitor's saves are on disk", "statement": "After CleanUpMonitorStorage and any number of calls of SaveStorage, the file of each period holds the client update last saved for that period, no other period has a file, the CRV file holds the last revocation vectors, and nothing outside the storage directory has changed; a save that cannot be carried out returns an error.", "quantifier": "all disks, all storage paths, all sequences of saves", "why_tests_cant": "Depends on what is on the disk beforehand and on the whole sequence of saves, with repeated periods; tests save one period on a fresh disk and ignore the error.", "anchors": ["monitor/types.go:114-132", "monitor/types.go:299-310", "util/IO.go:18-84"]}
{"id": "C111", "title": "A logger's split view reaches the clients", "statement": "If a logger answers the queries of two monitors with tree heads for one period under different signatures, then once no message is under way between monitors and gossipers every monitor whose gossiper runs has a conflict proof against the logger on file, and every client that accepts the monitor's next update rejects all certificates that rely on the logger.", "quantifier": "all fully connected systems of gossipers and monitors, all orders of messages, goroutines, timers and period ends, everything anybody else posts", "why_tests_cant": "Needs several monitors and gossipers running together under every interleaving, from the query to the client's decision; the tests run single components with one order of events.", "anchors": ["monitor/monitor.go:43-97", "monitor/monitor.go:134-175", "monitor/monitor.go:343-369", "monitor/monitor.go:413-492", "monitor/types.go:209-310", "gossiper/gossiper_server.go:61-318", "gossiper/gossiper_server.go:534-560", "client/client.go:130-273"]}
{"id": "C112", "title": "A revoked certificate stays rejected in its holder's hands", "statement": "If a client rejects a certificate because its revocation id is set in the CA's vector, then no change its holder makes to the certificate, keeping the subject, the key, the issuer, the signature and the CTng entries, makes the client accept it.", "quantifier": "all client states, all certificates, all changes", "why_tests_cant": "Quantifies over every certificate an attacker can make from the revoked one; tests present certificates as issued.", "anchors": ["client/client.go:210-273", "CA/types.go:162-176", "util/IO.go:176-192"]}
{"id": "C113", "title": "Fetching fails closed", "statement": "FetchCertificate returns, without error, only the first certificate the server presented in the TLS handshake, FetchGossip only the objects of a complete and well-formed reply with status 200; every other outcome is an error and none is a crash.", "quantifier": "all replies, all certificate chains, all connections", "why_tests_cant": "Depends on every misbehaviour of a server; tests talk to one working server.", "anchors": ["client/client.go:36-45", "client/client.go:48-81"]}
{"id": "C114", "title": "A silent entity is exposed to the clients", "statement": "If at least T monitors end their wait for an entity in one period without a statement from it, then once no message is under way between monitors and gossipers every running gossiper has blacklisted the entity, its monitor has a proof against the entity on file, and every client that accepts the monitor's next update rejects all certificates that rely on the entity.", "quantifier": "all fully connected systems of gossipers and monitors, all orders of messages, goroutines, timers and period ends, everything anybody else posts", "why_tests_cant": "Needs several monitors and gossipers under every interleaving, from the unanswered query through threshold signing to the client's decision; the tests run single components with one order of events.", "anchors": ["monitor/monitor.go:134-175", "monitor/monitor.go:289-340", "monitor/monitor.go:343-369", "monitor/monitor.go:43-97", "monitor/types.go:209-310", "gossiper/gossiper_server.go:61-318", "gossiper/gossiper_server.go:534-560", "client/client.go:130-273"]}
{"id": "C115", "title": "A lie is a split view", "statement": "What a CA or logger of a lying test type shows instead of its statement of a period is a correctly signed object of the same kind, signer, entity and period that says something else under a different signature, so that a gossiper that handles both convicts the entity.", "quantifier": "every history of the CA or logger before and after the end of the period, every set of revoked certificates, every pool of certificates", "why_tests_cant": "the lie differs from the truth only if a certain certificate is not revoked, which random revocations rarely hit", "anchors": ["CA/CRV.go:94-146", "CA/server.go:406-427", "CA/server.go:155-209", "Logger/server.go:224-236", "Logger/server.go:46-109"]}
{"id": "C116", "title": "A statement shown to one monitor reaches the clients of all", "statement": "If an honest logger answers one monitor with its tree head and at least T gossipers run, then once no message is under way every client that accepts the next update of any monitor has recorded the root of the tree head for the logger and the period of the tree head; if an honest CA answers with a revocation, a client without a vector of the CA takes over the revocation and accepts no certificate revoked in it.", "quantifier": "all fully connected systems of gossipers and monitors, all orders of messages, goroutines, timers and period ends, everything anybody else posts as long as it is no other valid statement of the entity", "why_tests_cant": "Needs several monitors and gossipers under every interleaving, from the answered query through flooding and threshold signing to the client's database; the result depends on the minute in which the last signature arrives.", "anchors": ["monitor/monitor.go:134-175", "monitor/monitor.go:230-284", "monitor/monitor.go:43-97", "monitor/monitor.go:413-439", "gossiper/gossiper_server.go:61-318", "gossiper/gen.go:47-93", "client/client.go:130-260"]}
{"id": "C117", "title": "Clients can use the revocations of honest CAs", "statement": "An update that carries the revocation an honest CA published, signed by the gossipers, is accepted by every usable client that has handled the earlier ones, and the client accepts no certificate revoked in it.", "quantifier": "every history of the CA, every minute, every clock of the gossipers, every client", "why_tests_cant": "the hash the CA signs covers the period number the CA wrote, the client checks it with the date the gossipers put on the object; they agree in some minutes and differ in others", "anchors": ["CA/server.go:372-438", "CA/CRV.go:94-146", "gossiper/gen.go:56-80", "client/client.go:101-156", "client/parser.go:13-29"]}
{"id": "C118", "title": "The processes keep the periods", "statement": "Wherever in a minute the processes were started, in every minute after its first an honest logger or CA answers with the statement it built at the end of the minute before, and the update a monitor writes is that of the minute in which it sent its queries.", "quantifier": "every starting time, every period length, every lateness of the timers, every history of the process, every time of the request", "why_tests_cant": "each process waits for the clock in its own way, timers are chained so that lateness adds up over hours, and a missed minute shows only when the sum crosses a minute boundary", "anchors": ["CA/server.go:337-341", "CA/server.go:439", "CA/server.go:444-468", "Logger/server.go:200-284", "monitor/monitor-server.go:35-56", "monitor/monitor.go:441-470", "gossiper/gossiper_server.go:562-597", "util/helpers.go:121-129"]}
{"id": "C119", "title": "Proofs of inclusion arrive in time", "statement": "The tree head and the proofs a logger posts at the end of a minute reach a CA while it still holds the certificates of that minute, so that every certificate carries them when the CA ends the round.", "quantifier": "every starting time of the CA and the logger, every round, every order of the other messages, every transmission time below the second the two are apart", "why_tests_cant": "the CA ends its round one second after the loggers, unless it was started in the first second of a minute; then the proofs come too late in every round", "anchors": ["CA/server.go:236-263", "CA/server.go:337-371", "CA/server.go:372-439", "CA/server.go:444-454", "Logger/server.go:161-180", "Logger/server.go:200-284"]}
{"id": "C120", "title": "A logger outlives the addresses it posts to", "statement": "Whichever addresses answer, the end of a period of a logger with at least two certificates succeeds, and its tree head reaches every CA of its list that answers.", "quantifier": "every history of submitted certificates, every set of addresses that answer, changing from call to call", "why_tests_cant": "the failing case needs an address that does not answer at the end of a period; whoever submits a certificate chooses that address, since the issuer is not checked", "anchors": ["Logger/server.go:112-129", "Logger/server.go:131-180", "Logger/server.go:207-252"]}
{"id": "C121", "title": "Requests reach their handlers", "statement": "Every request that a gossiper, monitor, logger or CA sends is routed by the receiving server to the handler that decodes what the request carries.", "quantifier": "every network of gossipers, every schedule, every input from outside; every history of a monitor", "why_tests_cant": "the path is computed from the type of an object that may come from anyone, some types have a path without a route, and a redirect for a trailing slash turns a POST into a GET", "anchors": ["CA/server.go:38-55", "Logger/server.go:31-44", "monitor/monitor-server.go:22-33", "gossiper/gossiper_server.go:27-47", "gossiper/gossiper_server.go:480-501", "monitor/monitor.go:343-361", "monitor/monitor.go:146", "monitor/monitor.go:242"]}
{"id": "C122", "title": "Locked sections are atomic", "statement": "However the goroutines of a gossiper are interleaved, the accesses to its maps behave as if every locked section were executed at one moment, and no goroutine is inside a map while another one is writing that map.", "quantifier": "every schedule of requests, timers and single steps (taking a lock, one map access, releasing a lock) in which no wipe meets a held lock", "why_tests_cant": "a test runs a few interleavings out of unboundedly many; the failing one needs the periodic Save in the middle of a fragment being stored", "anchors": ["gossiper/Interface.go:35-41", "gossiper/Interface.go:80-116", "gossiper/Interface.go:118-334", "gossiper/Interface.go:581-612", "gossiper/types.go:27-56"]}
{"id": "C123", "title": "The gossiper's locks do not deadlock", "statement": "As long as no wipe meets a held lock: if some goroutine has work left, some goroutine can take a step, and all goroutines inside locked sections can be run to the end of their sections.", "quantifier": "every schedule, any number of goroutines, writer-preferring read-write locks", "why_tests_cant": "a deadlock needs a particular interleaving of goroutines that hold one lock and ask for the next", "anchors": ["gossiper/Interface.go:581-612", "gossiper/Interface.go:118-334", "gossiper/types.go:39-56"]}
{"id": "C124", "title": "The wipe leaves requests under way alone", "statement": "WipeStorage at the end of a period does not disturb a request that is being handled at that moment: the process goes on.", "quantifier": "every schedule, every request, every moment of the wipe", "why_tests_cant": "the wipe overwrites the locks themselves; the process ends only if a goroutine holds one of them at that moment", "anchors": ["gossiper/Interface.go:629-639", "gossiper/gossiper_server.go:562-573"]}
{"id": "C125", "title": "Every certificate a logger accepts is covered by a tree head", "statement": "A certificate a logger has put into its pool stays there until it is a leaf of a tree head the logger has stored, also if it arrives while the logger's end of period is running.", "quantifier": "every schedule of arriving certificates, requests and steps of any number of ends of periods, posts of any duration", "why_tests_cant": "the certificate has to arrive between the copy of the pool and its replacement, a window as long as all posts of the round", "anchors": ["Logger/server.go:112-130", "Logger/server.go:205-256"]}
{"id": "C126", "title": "A logger survives its end of period however long its posts take", "statement": "With two certificates in the pool and every issuer answering, the end of a period runs to its end without ending the process, whatever certificates and requests arrive meanwhile.", "quantifier": "every schedule, every pool, posts of any duration", "why_tests_cant": "needs posts slower than the period, so that two ends of periods are under way at once", "anchors": ["Logger/server.go:161-180", "Logger/server.go:205-256"]}
{"id": "C127", "title": "Every proof a CA has answered is in its certificate", "statement": "After receive_poi has answered, the certificate of the proof in the CA's pool has an entry by the signer of the logger's tree head, and keeps the entries it had; also if other proofs are handled at the same time.", "quantifier": "every schedule of any number of handlers of proofs, tree heads and requests, every reachable state of the CA", "why_tests_cant": "a lost update needs two loggers' proofs for one certificate decoded before the first is written", "anchors": ["CA/server.go:236-263", "CA/types.go:105-142"]}
{"id": "C128", "title": "Counters of requests are accessed by one goroutine at a time", "statement": "The counts of requests and the online durations of a CA and a logger are never accessed by two goroutines at once with one of them writing.", "quantifier": "every schedule of any number of requests, arriving objects, starts and ends of periods", "why_tests_cant": "a data race needs two accesses to overlap; the outcome of an overlap is not reproducible", "anchors": ["CA/server.go:134-209", "CA/server.go:431-436", "Logger/server.go:46-109", "Logger/server.go:227", "Logger/server.go:244-249"]}
{"id": "C129", "title": "Maps and pools of CA, logger and monitor are accessed by one goroutine at a time", "statement": "No map, pool or certificate extension of a CA, a logger or a monitor is accessed by two goroutines at once with one of them writing (for maps the Go runtime may then end the process).", "quantifier": "every schedule of any number of goroutines of every kind", "why_tests_cant": "the runtime reports only overlaps that happen, and only some of them", "anchors": ["CA/server.go:213-263", "CA/server.go:338-438", "Logger/server.go:112-129", "Logger/server.go:206-253", "monitor/types.go:88-296", "monitor/monitor.go:316-393"]}
{"id": "C130", "title": "CA, logger and monitor do not deadlock", "statement": "While a goroutine of a CA, a logger or a monitor has something left to do, some goroutine can take a step without waiting, and everything started can be run to its end, after which no lock is held.", "quantifier": "every schedule, any number of goroutines, whichever waiter a lock prefers", "why_tests_cant": "a deadlock needs a particular interleaving", "anchors": ["CA/server.go:134-263", "Logger/server.go:46-129", "monitor/types.go:165-296"]}
{"id": "C131", "title": "An honest logger is not convicted by its own tree heads", "statement": "A logger that follows the code and builds one tree head per minute is not blacklisted for a split view by a gossiper that is posted only that logger's own tree heads.", "quantifier": "every time of two ends of period, every set of certificates, every schedule of the logger and the gossiper", "why_tests_cant": "the label of a tree head is the minute of the hour, so the first coincidence needs an hour of running or a replayed message", "anchors": ["Logger/buildmerkle.go:14-51", "Logger/server.go:46-110", "Logger/server.go:206-253", "util/helpers.go:116-135", "gossiper/gossiper_server.go:180-235"]}
{"id": "C132", "title": "A recorded root belongs to its minute", "statement": "The root a client records for a logger and a minute is the root of the tree head that the logger labelled with this minute.", "quantifier": "every schedule of the gossipers, every minute in which a statement is signed", "why_tests_cant": "needs the signatures to be completed after the turn of the minute, and then the whole next minute", "anchors": ["gossiper/gen.go:47-80", "gossiper/gossiper_server.go:365-378", "monitor/types.go:165-296", "client/client.go:165-185"]}
{"id": "C133", "title": "Only configured addresses are contacted", "statement": "Gossipers, loggers and monitors send requests only to the addresses in their configuration, whatever others post to them.", "quantifier": "every schedule, every message, every address", "why_tests_cant": "an attacker chooses the address; a test uses the configured ones", "anchors": ["gossiper/gossiper_server.go:49-144", "gossiper/gossiper_server.go:449-560", "Logger/server.go:112-180", "Logger/server.go:239-243", "monitor/monitor.go:130-281"]}
{"id": "C134", "title": "Rounds that overlap do not share ids or subjects", "statement": "No two certificates a CA makes have the same revocation id or the same subject, also if a tick of the CA's timer comes while an earlier round is still making or posting certificates.", "quantifier": "every schedule of any number of rounds, tree heads, proofs, requests and revocations", "why_tests_cant": "two rounds overlap only when making keys takes longer than a period; the races need particular interleavings", "anchors": ["CA/server.go:337-371", "CA/ca.go:19-67", "CA/ca.go:106-130", "CA/ca.go:180-189"]}
{"id": "C135", "title": "A certificate stays in the CA's pool until its own round ends", "statement": "A certificate that a CA has posted to the loggers is in its pool, where a proof of inclusion finds it, until the end (f1) of the round that made it.", "quantifier": "every schedule of any number of rounds, tree heads, proofs, requests and revocations", "why_tests_cant": "needs posting to take longer than 20 seconds, or overlapping rounds", "anchors": ["CA/server.go:236-263", "CA/server.go:337-439", "crypto/certpool.go:67-103", "CA/types.go:178-195"]}
{"id": "C136", "title": "What is printed names the type and the identifier", "statement": "The name printed for an object's type is different for each of the ten types and is UNKNOWN for exactly the other strings; two different gossip identifiers never print as the same string.", "quantifier": "all types, all identifiers with arbitrary periods, types and entities", "why_tests_cant": "the colliding identifiers have particular entity ids; tests use fixed ids", "anchors": ["definition/Types.go:60-75", "definition/Types.go:126-153"]}
{"id": "C137", "title": "Which bodies a gossiper takes, and for what", "statement": "A body posted to a gossiper is taken (not answered with 400) exactly if it begins with a JSON text that is null or an object whose members named like a field, in any capitalisation, have a value of the field's kind; each string of the object is then that of the last such member.", "quantifier": "all bodies, all addresses of objects, notifications and payload requests", "why_tests_cant": "depends on every malformed, duplicated, capitalised and mistyped member", "anchors": ["gossiper/gossiper_server.go:50-62", "gossiper/gossiper_server.go:97-110", "gossiper/gossiper_server.go:146-156", "definition/Types.go:3-14", "gossiper/types.go:108-114"]}
{"id": "C138", "title": "Updates made while the monitor works", "statement": "However the steps of handlers, queries, timers and the end of a period of a monitor are interleaved, the update written lists only objects that were delivered, of the update's period and not of an entity excluded by a conflict proof on file, each once, and lists every such object on file when the end of the period starts.", "quantifier": "all schedules of all goroutines, all objects and clocks", "why_tests_cant": "the end of a period takes no lock against handlers, so the outcome depends on where in it a POST falls", "anchors": ["monitor/monitor.go:413-439", "monitor/monitor.go:460-468", "monitor/types.go:88-112", "monitor/types.go:271-297", "monitor/types.go:209-268"]}
{"id": "C139", "title": "Revocations do not disappear at a monitor", "statement": "Once a monitor's revocation vector of a CA has a bit set, it has it for ever, however the timers that update the vector are interleaved.", "quantifier": "all schedules, all CAs and vectors", "why_tests_cant": "the test for a vector and the store are not under one lock; both timers must look before either stores", "anchors": ["monitor/types.go:249-263"]}
{"id": "C140", "title": "No accusation with the evidence at hand", "statement": "When a monitor sends an accusation it has neither a statement of the accused for the current period nor a proof against it, whatever arrives while the accusation is being made.", "quantifier": "all schedules, all entities and objects", "why_tests_cant": "the statement must arrive between two reads of the timer function", "anchors": ["monitor/monitor.go:289-340", "monitor/monitor.go:373-393"]}
{"id": "C141", "title": "The configured hash scheme", "statement": "The hash scheme of a configuration names one of the algorithms of RFC 5246, is printed by that algorithm's name and by no other, and is the algorithm used both for hashing and for signatures.", "quantifier": "all scheme numbers, messages and configurations", "why_tests_cant": "every generated configuration uses SHA256, so the other schemes and the ignored setting never run", "anchors": ["crypto/hash.go:20-56", "crypto/types.go:56-93", "crypto/crypto_config.go:23-49", "crypto/rsa.go:26-44"]}
{"id": "C142", "title": "One root per tree head", "statement": "ExtractRootHash returns the root of the tree the head was built for: every proof of inclusion handed out with the head verifies against it and it binds the certificates. A client goes by the same root, and does not accept a head no root can be taken out of.", "quantifier": "all tree heads, certificate lists, client states and certificates", "why_tests_cant": "the one test reads back a head built from two certificates; heads with bytes after the hexadecimal form are never made", "anchors": ["definition/Verify.go:116-136", "Logger/buildmerkle.go:14-51", "client/client.go:159-178", "client/client.go:229-250"]}
{"id": "C143", "title": "A process runs with the configuration of its files", "statement": "A gossiper, monitor, logger, CA or client runs only if each of its configuration files exists and holds a configuration, and then with exactly that configuration. The files Generateall writes for an entity start it with the URLs, ports, periods and keys it was generated with, and processes started from them accept each other's signatures.", "quantifier": "all file contents and all generated deployments", "why_tests_cant": "the tests start from files generated beforehand; missing, truncated or null files and all deployment sizes cannot be enumerated", "anchors": ["util/IO.go:126-137", "crypto/crypto_IO.go:81-101", "gossiper/Init.go:51-79", "monitor/types.go:312-361", "Logger/Types.go:93-133", "CA/types.go:297-344", "client/types.go:115-135", "Gen/Gen.go:226-237", "Gen/Gen.go:302-421"]}
{"id": "C144", "title": "The address mapping on disk", "statement": "A table of addresses written to a file is read back as it was, and a file that is no table is refused. Map_all over the files of a generated deployment leaves files from which every process starts under the address the table gives it, with its old port, timing and secret keys, and the processes accept each other's signatures and fragments. It can be run again with another table.", "quantifier": "all tables, deployment sizes, timings and file contents", "why_tests_cant": "the tests map one deployment with one table once, and nothing starts the mapped processes", "anchors": ["Gen/IPmapping.go:20-77", "Gen/IPmapping.go:79-444", "util/IO.go:37-58", "util/IO.go:126-137"]}
{"id": "C145", "title": "One accusation per period", "statement": "A monitor accuses a logger or CA at most once in a period, and only one that it has queried: an entity in neither of its lists is never accused, whatever it receives.", "quantifier": "all monitors, answers, arrivals of messages and orders in which the goroutines run", "why_tests_cant": "the number of accusations depends on when queries fail and on the order of goroutines; tests see a few lucky orders", "anchors": ["monitor/monitor.go:134-173", "monitor/monitor.go:230-284", "monitor/monitor.go:289-340"]}
{"id": "C146", "title": "A CA survives its rounds", "statement": "No step of a round of a CA panics, also if rounds overlap each other, messages, requests and revocations: signing the revocations at the end of a round succeeds, adding a certificate to the pool does not panic, and a round that has begun ends after a fixed number of its own steps. (Unlocked access to maps, which Go may end the process for, is C129.)", "quantifier": "all numbers of certificates per period, all schedules of rounds, messages, requests and revocations", "why_tests_cant": "overlapping rounds need a slow machine or a long list of certificates; a run that did not panic shows nothing about other orders", "anchors": ["CA/server.go:337-440", "CA/server.go:279-292", "CA/ca.go:20-68", "CA/ca.go:180-189", "CA/CRV.go:94-146", "crypto/certpool.go:83-103", "crypto/certpool.go:175-186"]}
{"id": "C147", "title": "A FRAG object is a signature of its signer", "statement": "Gossip_object.Verify accepts an STH_FRAG, REV_FRAG or ACC_FRAG object if and only if its first payload field and its signature are non-empty and the key registered for the gossiper named in its Signer field made the signature on its whole payload; the FRAG object a gossiper makes of an INIT object is accepted by everybody who has its key.", "quantifier": "every FRAG object, every crypto configuration", "why_tests_cant": "a statement about all signature strings and all payloads, accepted or refused", "anchors": ["definition/Verify.go:42-53", "definition/Verify.go:87-114", "crypto/bls.go:108-111", "crypto/types.go:201-215", "crypto/crypto_config.go:88-97", "gossiper/gen.go:11-28"]}
{"id": "C148", "title": "The gossiper's log file", "statement": "The log file of a gossiper holds one record for every period at the end of which there was something to log, and the record of a period tells that period's numbers of objects, times of convergence and bytes of traffic.", "quantifier": "every history of messages and period ends, every disk", "why_tests_cant": "concerns what is on disk after any history, over hours, and for any contents of the disk before", "anchors": ["gossiper/Interface.go:80-116", "gossiper/types.go:88-106", "gossiper/Init.go:45-79", "gossiper/gossiper_server.go:562-576", "util/IO.go:37-58", "util/helpers.go:108-113", "tests/networktests/Test1/Test1.go:63-74"]}
{"id": "C149", "title": "A logger's file holds the certificates of the round", "statement": "After any history of precertificates, periodic rounds and requests, the storage file of a logger holds exactly the certificates of the last round in which a proof of inclusion was sent to a CA; nothing else on the disk changes.", "quantifier": "every history of a logger, every disk, every storage path", "why_tests_cant": "concerns the disk after any sequence of rounds, including rounds that stop half way", "anchors": ["Logger/server.go:161-180", "Logger/Types.go:53", "Logger/Types.go:170-179", "util/IO.go:37-58"]}
{"id": "C150", "title": "What is sent to a gossiper does not end it", "statement": "No panic escapes on a goroutine of a gossiper that net/http does not protect (the signing timers and the end of a period): whatever is posted to the gossiper, in whatever order and interleaving, its process goes on.", "quantifier": "every history of messages of any content, notifications, requests, timers and ends of periods, every interleaving of the goroutines", "why_tests_cant": "concerns every content of messages and every schedule of the goroutines they start", "anchors": ["gossiper/gossiper_server.go:242-249", "gossiper/gossiper_server.go:283-290", "gossiper/gossiper_server.go:331-363", "gossiper/gossiper_server.go:562-576", "gossiper/gen.go:12-28", "gossiper/gen.go:47-80", "definition/Verify.go:56-67", "crypto/bls.go:76-108"]}
{"id": "C151", "title": "What is sent to a monitor does not end it", "statement": "Neither an object posted to a monitor nor an answer to one of its queries ends the monitor's process.", "quantifier": "every history of posts, queries, answers and timers, every interleaving of the monitor's goroutines, every object", "why_tests_cant": "Needs one particular answer, in the name of somebody the monitor has no key for, or an SRH that is no signature; honest loggers and CAs never give it.", "anchors": ["monitor/monitor.go:43-65", "monitor/monitor.go:142-171", "monitor/monitor.go:239-281", "monitor/monitor.go:493-521", "crypto/crypto_config.go:42-49", "crypto/rsa.go:38-44", "definition/Verify.go:22-81"]}
{"id": "C152", "title": "What is given to a client does not end it", "statement": "Neither an update given to a client nor a certificate it checks makes the client panic: HandleUpdate and VerifyCTngextension return.", "quantifier": "every client state, every update, every certificate", "why_tests_cant": "Needs objects in the name of somebody without a registered key, SRHs that are no signatures, or a certificate of a CA of which the client has seen no revocation yet.", "anchors": ["client/client.go:101-128", "client/client.go:130-208", "client/client.go:210-273", "crypto/crypto_config.go:42-49", "crypto/bls.go:97-105"]}
{"id": "C153", "title": "What a CA's certificates say", "statement": "Every certificate a CA sends to the loggers names the CA as its issuer, is not itself a CA certificate, has a subject no other certificate of that CA has, carries a key generated in its round and each generated key is in exactly one certificate, has the hash of that key as key id, and an extension with its revocation id and no log entry. What the CA signs in the end has the same subject, key and id, and exactly the entries collected.", "quantifier": "every history of rounds, requests, tree heads, proofs and revocations of a CA that handles one event at a time", "why_tests_cant": "numbering, keys and extensions are carried over any number of rounds and any order of messages; a test sees a few", "anchors": ["CA/ca.go:20-68", "CA/ca.go:71-93", "CA/ca.go:124-130", "CA/ca.go:145-159", "CA/ca.go:180-189", "CA/types.go:144-160", "CA/types.go:178-195", "CA/server.go:300-317", "CA/server.go:337-371"]}
{"id": "C154", "title": "A period without faults is logged as one", "statement": "If in a period every logger and CA makes one valid STH or revocation update, and a gossiper receives all of them and the fragments of at least Threshold gossipers on each, then the entry it logs at the end of the period counts one statement, one FULL object and Threshold fragments per logger and CA, no accusations, and no new conflict proofs or blacklist entries.", "quantifier": "every set of statements, every threshold, every order and repetition of statements, fragments, timers, notifications and requests", "why_tests_cant": "the network test checks these numbers for one logger, one CA and the orders that happen to occur; whether the numbers come out depends on the order of arrival", "anchors": ["gossiper/Interface.go:80-116", "gossiper/gossiper_server.go:149-170", "gossiper/gossiper_server.go:210-292", "gossiper/gossiper_server.go:331-385", "gossiper/Init.go:75-76", "tests/networktests/Test1/Result_test.go:14-41"]}
{"id": "C155", "title": "A restarted monitor knows what it had filed", "statement": "A monitor that is stopped and started again over the same storage directory has the proofs of misbehaviour, threshold-signed statements and revocation vectors it had before; in particular it does not accuse a CA that it would have accepted had it kept running.", "quantifier": "every history of posts, queries, answers, timers and ends of periods before the restart, every history of an honest CA", "why_tests_cant": "the tests never restart a monitor; whether an honest CA is accused depends on what it revoked in any earlier period", "anchors": ["monitor/types.go:114-132", "monitor/types.go:134-163", "monitor/types.go:312-361", "monitor/monitor.go:239-281", "monitor/monitor.go:316-340"]}
{"id": "C156", "title": "An honest CA is not convicted by its own revocations", "statement": "A CA that follows the code and builds one revocation per minute is not blacklisted for a split view by a gossiper that is posted only that CA's own revocations.", "quantifier": "every history of the CA, every two ends of a period, every schedule of the gossiper", "why_tests_cant": "the label of a revocation is the minute of the hour, so the first coincidence needs an hour of running or a replayed message; whether the two revocations differ depends on everything revoked in between", "anchors": ["CA/CRV.go:53-67", "CA/CRV.go:94-146", "CA/server.go:372-438", "util/helpers.go:116-135", "gossiper/gossiper_server.go:180-235"]}
{"id": "C157", "title": "The programs find the deployment that was generated", "statement": "After Generateall every process of the deployment can be started: InitializeOneEntity and Map_all in the directory it ran in and the programs of tests/networktests in the directories below open, for each number, exactly the files generated for this process. They find them under config_path, find no process of another deployment, and nothing else on the disk is changed.", "quantifier": "every disk, every deployment, every config_path, every working directory", "why_tests_cant": "the generator is only ever run with an empty config_path in a directory that already holds the four directories, and the tests start the processes that were generated last", "anchors": ["Gen/Gen.go:226-237", "Gen/Gen.go:302-422", "Gen/Gen.go:424-454", "Gen/IPmapping.go:400-444", "tests/networktests/Test1/Test1.go:18-64"]}
{"id": "C158", "title": "A configured latency delays and does not block", "statement": "A gossiper, monitor, logger or CA with Min_latency and Max_latency set waits, before each message it sends or request it answers, for a number of milliseconds from Min_latency up to but excluding Max_latency, and then goes on. With Max_latency 0 it does not wait.", "quantifier": "all bounds, all sequences of results of the random source", "why_tests_cant": "the delay is random and the tests set only bounds that leave room between them; that a loop does not end cannot be observed in finite time", "anchors": ["util/helpers.go:140-152", "gossiper/gossiper_server.go:503-507", "Logger/server.go:46-49", "CA/server.go:134-137", "monitor/monitor.go:142-145", "monitor/monitor.go:238-241"]}
{"id": "C159", "title": "Names of entities and identifiers of the BLS library correspond", "statement": "Every name an entity can have gives an identifier of the BLS library, so that threshold keys can be generated for it; different names give different identifiers, and CTngIDfromBlsID gives back the name from the identifier.", "quantifier": "all names (byte strings), all lists of entities, all thresholds", "why_tests_cant": "the tests generate keys for short addresses of the form localhost:port only, and CTngIDfromBlsID is never called", "anchors": ["crypto/types.go:16-38", "crypto/bls.go:30-63"]}
{"id": "C160", "title": "A CA saves every certificate with its own key", "statement": "SaveToStorage of a CA does not panic. Called during a round it leaves, for every certificate issued in this round, a file <subject>_RID_<id>.crt with the certificate and its proofs and a file <subject>_RID_<id>.key with the private key that belongs to the public key in this certificate; no other file of certificates or keys is touched.", "quantifier": "every history of rounds, requests, tree heads, proofs and revocations, all generated keys, every state of the disk", "why_tests_cant": "the call is commented out in the running CA, the test of key pairs compares one pair, and the assignment of keys to subjects after many rounds is never looked at", "anchors": ["CA/types.go:266-294", "CA/ca.go:124-190", "CA/server.go:354-370"]}
{"id": "C161", "title": "A three-minute test run covers a period", "statement": "If the programs of the network test are started within one minute, then before they exit every monitor has sent queries that reach loggers and CAs which are still running and hold a statement of that minute, and has afterwards written an update dated with that minute that lists what it holds of it.", "quantifier": "every starting time of every program, every random clock drift, every number of monitors, every history of the processes", "why_tests_cant": "this is about the tests themselves: whether a run exercises the protocol depends on the second and the hour at which it was started and on how many monitors there are, and the result check passes over what was never written", "anchors": ["tests/networktests/Test1/Test1.go:37-55", "tests/networktests/Test1/Test1.go:82-85", "tests/networktests/Test2/Test2.go:53-57", "tests/networktests/Test3/Test3.go:51-56", "monitor/monitor-server.go:35-41", "monitor/monitor.go:441-470"]}
{"id": "C162", "title": "From the pre-certificate to the clients of all monitors", "statement": "If an honest CA issues a certificate, an honest logger logs it, the CA signs it with the logger's tree head and proof, and in the next minute the logger answers one monitor with the tree head and the CA one monitor with its revocations while at least T gossipers run, then every client that accepts the next update of any monitor and holds no proof of misbehaviour against the logger accepts this certificate, unless the revocations contain it, and accepts no certificate the revocations contain.", "quantifier": "every number of certificates, every minute, every interleaving of other messages at the CA, all fully connected systems of gossipers and monitors, all orders of messages, goroutines and timers, every client state", "why_tests_cant": "The chain runs through five programs; the tests check none of it beyond one period of one run, and whether the last link holds depends on the minute, on the order of messages and on what the client has seen before.", "anchors": ["CA/server.go:213-263", "CA/types.go:127-153", "Logger/server.go:207-252", "monitor/monitor.go:43-97", "monitor/monitor.go:134-175", "gossiper/gossiper_server.go:61-318", "client/client.go:130-273"]}
{"id": "C163", "title": "Quarantine holds under every schedule", "statement": "Once an entity is blacklisted and no handler is past its blacklist check with an object naming it, the entity stays blacklisted, and no object naming it is sent to the owner, signed, stored outside the payload store, or sent to a peer other than in answer to a payload request of that peer.", "quantifier": "every reachable state, every further schedule of goroutines, arriving messages, timers and ends of periods", "why_tests_cant": "the checks are made without holding a lock until the effect, so what a handler still does after a conviction depends on the interleaving; tests run a few of them", "anchors": ["gossiper/gossiper_server.go:180-208", "gossiper/gossiper_server.go:210-251", "gossiper/gossiper_server.go:253-292", "gossiper/gossiper_server.go:294-328", "gossiper/gossiper_server.go:330-379", "gossiper/Interface.go:125-225", "gossiper/Interface.go:432-434"]}
{"id": "C164", "title": "A conviction is final in the whole network", "statement": "Once a running gossiper of a fully connected network holds a conflict proof against an entity and nothing is under way, no gossiper ever again signs a statement naming the entity, stores one, sends one to its owner, or sends one to another gossiper other than a saved payload it was asked for.", "quantifier": "every reachable quiet state of the network, every further history of messages, goroutines, timers and ends of periods at all gossipers, crashed ones included", "why_tests_cant": "the claim is about all of the network's future, including armed timers and later periods; the network tests end after one or two periods", "anchors": ["gossiper/gossiper_server.go:180-208", "gossiper/gossiper_server.go:210-251", "gossiper/gossiper_server.go:294-328", "gossiper/gossiper_server.go:330-379", "gossiper/gossiper_server.go:480-501", "gossiper/Interface.go:125-225", "gossiper/Interface.go:629-639"]}
{"id": "C165", "title": "The owner gets one FULL object per statement", "statement": "Between two wipes a gossiper posts at most one FULL object for one entity, period and type to its monitor.", "quantifier": "every reachable state, every schedule of goroutines, arriving messages and timers", "why_tests_cant": "the count and the store are separate critical sections, so whether a second object is posted depends on the interleaving", "anchors": ["gossiper/gossiper_server.go:364-379", "gossiper/Interface.go:125-225", "gossiper/Interface.go:455-527"]}
