# Formal model of CTngV2 in Lean 4

The Go source is in `/repo` (read as text, never built). This directory holds a Lean 4 model of it, written
function by function, and theorems about the model. `properties.jsonl` is the list of properties, `MANIFEST.json` maps
each one to theorem names, `seeded/LOG.jsonl` records the wrong programs the theorems were tried against.

## Layout of `lean/Verif`

* `Base/`   Go strings as byte lists, Go maps as association lists, hex and JSON readers for signature strings, the
  external library interface (`Lib`).
* `Model/`  the code, one Lean definition per Go function, each citing file and lines.
* `Spec/`   library contracts (`Laws`, `XLaws`) and a reference library (`RefLib`) that meets them.
* `Proofs/` helper lemmas and invariants.
* `Props/`  the property theorems (names `C01_...`) with the small specifications they are stated with, and an
  `example` of a non-trivial instance beside each.

## How the code is modelled

* A Go `string`/`[]byte` is a `List UInt8`. Integers are `Int`/`Nat` (no overflow, except where a definition says so:
  the 64-bit revocation id, time zones).
* A Go map is an association list with unique keys; iteration order is never relied on.
* Sequential handlers are total functions from state to state. The network, timers and console are an append-only
  output trace plus a list of armed timers inside the state.
* Goroutines are modelled by a second, small-step machine whose atomic steps are the lock-protected sections of the
  code; threads are stacks of program points. A theorem (C35) ties it to the sequential functions. A third machine
  (`Model/Locks.lean`) has the locks, single map accesses and releases as steps and refines the second one (C122).
  The unlocked reads and writes of a logger's end of period and of a CA's handlers of proofs are steps of their own
  (`Model/LoggerConc.lean`, `Model/CAConc.lean`; C125-C127), the rounds of a CA (`Model/CATick.lean`; C134, C135), and monitors (`Model/MonConc.lean`; C138-C140, C41).
* A network of gossipers is a node state per id plus the list of messages in flight; delivery order is arbitrary, and
  messages stay in flight until delivered (no loss). Any number of foreign messages may be posted to any node.
* Monitors, clients, CAs, loggers and certificate pools are state machines whose events are the HTTP requests, timer
  expiries and period ends. A panic inside a handler is recovered (`net/http`), on any other goroutine it ends the
  process.
* External code (RSA PKCS1v15, SHA-256, the BLS library, JSON, hex of BLS points, gzip, x509, the clock, randomness)
  is a structure of arbitrary functions (`Lib`, `XLib`, `KeyLib`, `ConfJson`). Results that may be success, failure or
  panic are three-valued. Where a property needs a library contract it is an explicit hypothesis of the theorem.

### Library contracts used as hypotheses

| name | content | met by |
|------|---------|--------|
| `L.RsaLaws pub` | RSA PKCS1v15: verification under `pub k` accepts exactly what `k` signed, a signature determines its digest | `Ref.lib` |
| `L.BlsLaws pub` | BLS: signatures verify, aggregates are order-independent sums and verify under their signers' keys, both are determined by keys and message, hex round trip. Idealises away secret keys summing to zero | `Ref.lib` |
| `L.JsonLaws` | `encoding/json` reads the two shapes of signature strings the project prints | `Ref.lib`; `json_laws` for every `L.withJson` |
| `X.Laws` | x509 parse/create round trip for the fields the code reads | `Spec/XLaws` example |
| `OS.Laws`, `Pkcs8.Laws` | a directory listing has each entry once; PKCS8 encodings of RSA keys are read back | `Ref.os_laws`, `Ref.pkcs8` |
| `BlsIds.Laws`, `KeyLib.ByIds` | identifiers of the BLS library: numbers below a 255-bit order read from hexadecimal digits, serialized to 32 bytes; keys are derived from the identifier alone | `Ref.blsIdsLaws`, `Ref.idKeysBy` |
| `KeyLaws`, `DiskLaws`, `J.Laws` | key generation gives matching pairs; files read back as written; configuration JSON round trip | `Props/CryptoIO`, `Props/Deploy` |

Theorems that talk about hash collisions return an explicit pair of colliding inputs instead of assuming there is none.

## When the code violates a property

The code is modelled as it is. The violation is proved as a theorem named `Cxx_violated...` (a general attack where
possible, otherwise a concrete witness), and what does hold is proved as `Cxx_..._partial`, with what is missing in its
comment. The manifest status is then `partial`.

## Plan per property

Signatures and statements (`Model/Definition`, `Model/Verify`, `Model/Crypto`):

| id | modelled | proof |
|----|----------|-------|
| C01 | `Verify` of INIT types over arbitrary `Lib` | iff with an independent predicate by cases; RSA contract for "was signed" |
| C02 | `Verify`, sequential handler | by cases on the type |
| C03 | same | violated: attack for every second registered key. Partial: signed by the id inside the signature |
| C04 | same | violated: verdict independent of period, type in class, signer. Partial: payload concatenation is bound |
| C05 | same | violated: only the concatenation matters. Partial: bound when two fields have fixed lengths |
| C06 | `Verify_CON` | violated: framing of anybody. Partial: two valid signatures over the claimed statements exist |
| C07 | `Verify` of FULL types | violated: one signer repeated. Partial: aggregate of the listed signers |
| C08 | `ThresholdAggregate/Verify` | BLS contract; induction over the signer list, permutation invariance |
| C09 | insertion sort for `sort.Sort` | permutation and uniqueness of sorted lists |
| C10 | hex codec and JSON reader of signature strings, concretely | induction on strings |
| C79 | `VerifySRH` key choice | violated by any registered key; partial for strings naming the CA |

Gossiper (`Model/Gossiper` sequential, `Model/GossiperConc` concurrent, `Model/Network`):

| id | modelled | proof |
|----|----------|-------|
| C11-C13, C15, C16, C26 (first part), C33 | concurrent machine | invariants by induction over all schedules |
| C14, C34 | concurrent machine with aggregation tokens | partial: all schedules without a wipe in progress, and all sequential histories; schedules across a wipe violate |
| C17, C18, C20, C23-C25, C28 | sequential handler in any reachable state | case analysis; C17, C23, C25 violated in parts |
| C19 | concurrent machine | violated by replay with a second signature, and by replay with the hexadecimal letters of the signature in upper case; partial: consistent input gives no conviction |
| C21, C29, C36, C26 (blacklist) | sequential invariant, explicit bad schedule; for C29, C26 and C21 also an invariant of all schedules (`Props/FirstFull.lean`, `Props/FragOnce.lean`): only a handler that was past its check when the object was stored or the entity blacklisted can replace it, sign, or store the signature again; for C36 (`Props/CaughtLate.lean`) every schedule in which the first tree head is held before the second handler checks ends with the log blacklisted | partial and violated |
| C22, C27 | sequential histories, BLS contract | induction over histories; violated by repeated / forged / undecodable fragments (the last if the library treats the zero points as neutral, `C22_violated_without_keys`) |
| C30, C31 | optimisation path | by cases; C30 only if the payload arrived first |
| C32 | log entry and counters | from the map invariants |
| C35 | both machines | simulation, one handler at a time |
| C37, C38 | network of concurrent machines, full mesh | invariant "held, being handled, or in flight" for every schedule; at quiescence everybody holds it |
| C105 | the same network, one tree head per gossiper | partial: two-phase invariant over every schedule (before and after the first peer accepts a version), then C37 and an owner-post invariant; violated by a logger that varies the unsigned Signer field |
| C111 | `Model/System.lean`: the gossiper network, one monitor per gossiper and the posts between them, from start-up | partial: C105 composed with the monitor's and the client's theorems through projections of a history to each component; violated: proofs that arrive after the update of their minute are in no update |
| C114 | `Model/System.lean`, as C111 | partial: an accusation posted to a gossiper is kept there, blacklisted or still on a goroutine (`Proofs/NetworkConcShown`); with C92 (concurrent), the monitor's theorems (C45, C43) and the client's (C53) through projections of a history. Violated: full accusations that arrive after the update of their minute are in no update |
| C115 | the second statement CAs and loggers of the lying types build (`Props/Lies`) | loggers proved; CAs violated in the first period when certificate 1 is revoked (lie = truth), partial otherwise; with C18 the pair convicts |
| C116 | `Model/System.lean`, as C111 | partial: an answer the monitor passes on reaches its gossiper and floods (C38), is signed (C91, concurrent), the FULL object reaches every monitor, is in its update (C43) and in the client's databases (C50, C52). Violated: the FULL object is dated with the clock of the gossiper that completes it; if the minute has turned, the root is recorded under another minute |
| C117 | `Model/CA.lean`, `Model/Client.lean` (`Props/ClientRevs`) | partial: from `published_exact` (what an honest CA publishes), C47 and C50, for FULL objects dated as the CA dated its statement, first period. Violated: any other date (a hash collision otherwise), hence always in ten minutes of every hour; later revocations; the client accepts nothing afterwards (C49) |
| C118 | `Model/Schedule.lean`: the waits of the four start functions and the chains of timers with arbitrary lateness, on a time line in milliseconds | partial: arithmetic on times, then C59 and C43, for periods of 60 seconds while the delays stay in the last twenty seconds. Violated: lateness that adds up skips a minute (pigeonhole), periods of two minutes never meet, monitors that do not wait for the minute |
| C119 | the same, histories of a CA with times | partial: the order of events follows from the times, then the embedding theorem of C77. Violated: a CA started in the first second of a minute |
| C120 | the round of a logger with posts that can fail (Delivery) | partial: equal to the model of C64, C75 and C103 on a reliable network; succeeds exactly when all issuers answer; tree heads go to exactly the CAs that answer. Violated: a certificate from anyone with an unreachable issuer ends the logger |
| C121 | the four route tables, the router's redirects and the client that follows them (Routes) | proved: invariant on the program points of the concurrent gossiper (only types with a route reach the sending function), carried to the network; histories of a monitor; the fixed paths by evaluation |
| C122 | the gossiper with its locks: every lock, map access and release is a step (`Model/Locks.lean`) | partial: refinement, each calm schedule of the lock-level machine is a schedule of the machine with atomic sections (linearised at the last access); writers exclude everyone but `Save`. Violated: `Save` loops over the fragment maps without a lock. `len` of a map read without its lock is one read, not a race |
| C123 | as C122, with writer-preferring `RWMutex` | proved: every section takes its locks in one global order; counting invariant between locks and goroutines; termination by a measure |
| C124 | as C122, `WipeStorage` replaces the locks | violated: a wipe while another goroutine holds a lock ends the process at that goroutine's unlock, for every reachable state and request; partial: calm schedules never reach it |
| C125 | the end of a period of a logger in single steps, beside arriving certificates, requests and other ends of periods (`Model/LoggerConc.lean`) | violated: at every moment of the window between the copy of the pool and its replacement a new certificate is accepted and then in no tree head. partial: the round is that of the pool it began with; schedules without arrivals in a window lose nothing (invariant over all schedules) |
| C126 | the same | partial: an end of period that overlaps no other one survives, by a measure on the steps left. Violated: one that clears the pool while another posts makes the other dereference nil |
| C127 | the handlers of proofs of a CA in single steps: read, look up, decode, write (`Model/CAConc.lean`) | violated: two handlers that decode before one writes lose an entry, though both answered. partial: alone equal to the sequential function; under any interleaving the certificates keep identity, one entry per signer, genuine tree heads; with one handler at a time between decoding and writing, nothing is lost |
| C128, C129 | the accesses of all goroutines of CA, logger and monitor to what they share, with the locks they hold, as programs with choices and loops (`Model/Races.lean`) | partial: guard theorem (who writes holds all guards of the variable, who reads holds one) for every schedule of any number of goroutines, by an invariant on the steps left. Violated: for two programs that reach conflicting accesses without a common lock, a schedule with a race from every state without held locks |
| C130 | the same | proved: no lock is taken while another is held; termination by the number of steps left |
| C131 | logger of C64 and C125, gossiper of C36, without anything new (`Props/Replay.lean`) | violated: two tree heads with one label are a conflict as soon as hour, day or month differ (their stamps differ, so their signed texts do), for every set of certificates; served together when a build takes until the next minute (invariant: every stored head was built at some end of period). partial: labels pairwise distinct, then C19 |
| C132 | gossiper under all schedules, monitors and clients (`Props/Replay.lean`) | violated: a tree head signed in the minute after takes the place of the genuine one at gossipers, monitors and clients (run of the whole system). partial: property of objects closed under everything a gossiper makes (`ObjClosed`), from any state without tree heads, while its clock shows one minute; C50 at the clients |
| C133 | what gossiper, logger and monitor send, with its destination (`Props/Contacts.lean`) | violated: a notification has any gossiper post to any address, a request has it post a revocation there, a certificate has the logger post to the issuer it names. partial: under every schedule, posts to a foreign address are at most as many as the messages naming it (potential: posts plus goroutines about to answer), and only the two kinds of answers; tree heads only to configured CAs, proofs only to named issuers. Monitors: proved |
| C134 | rounds of a CA in single steps: wipe, read offset, read counter, step counter, add, post, f1 (`Model/CATick.lean`, `Props/CATick.lean`) | violated: two rounds that read the counter before one steps it give the same id and skip one; two rounds that read their offset before either makes a certificate give the same subjects. partial: alone equal to `startRound`/`endRound`; under every schedule in which no two rounds make certificates at once, certificate j has id j and subject j |
| C135 | the same model | violated: f1 is armed after posting, the next tick before, so a slow round ends in the middle of the next one and empties its pool; a certificate with a subject already in the pool is dropped. partial: if rounds do not make certificates at once and none ends while another holds certificates (in particular: rounds one after the other), every certificate posted is in the pool and found by its key until its round ends |
| C136 | `TypeString`, `Gossip_ID.String` (`Model/Definition.lean`, `Props/Printing.lean`) | names proved; identifiers violated: period, type and entity are joined without separator; partial: different for the ten types and periods of one length |
| C137 | decoding of bodies in the model of the wire (`Model/Wire.lean`), against a grammar of fitting values (`Props/WireFits.lean`) | proved: exact characterisation, including names (folding), base 64 and numbers; contents of string fields |
| C138 | a monitor in single steps: every map access and loop of handlers, queries, timers and the end of a period (`Model/MonConc.lean`, `Props/MonConc.lean`; `monC_history`: histories of whole events are among the schedules) | violated: a tree head posted after the storages were cleared is listed, of whatever period and of an excluded entity. partial: only delivered objects, in the list of their type, no id twice; every object of the period on file at the start of the end is listed unless replaced or excluded |
| C139 | the same model, timers of revocations as look and store | violated: of two timers that both look first, the second replaces the vector of the first. partial: a vector on file stays if no timer is between look and store, so if the timers of a CA do not overlap |
| C140 | the same model, `Wait_then_accuse` and `AccuseEntity` in four steps | violated: statement and proof arriving in between are on file when the accusation goes out. partial: at moments before, with the clock of the moment, there was no statement and no proof |
| C141 | `GenerateHash`, `HashAlgorithm.String`, `CryptoConfig.Hash/Sign/Verify` against a table of RFC 5246 | violated: four algorithms are refused once configured; signatures are SHA256 whatever the scheme. partial: the table and names exactly; `Hash` for MD5 and SHA256 |
| C142 | `ExtractRootHash` beside `BuildMerkleTreeFromCerts` and the client's reading of a head; hexadecimal text specified without a decoder | violated: the client ignores the hexadecimal error and keeps heads no root can be taken out of. partial: exactly when a root comes out; it is the tree's root, binds the subjects, and is the one the client uses |
| C143 | the JSON texts of all configuration files (`MarshalIndent`, `big.Int`, maps, structs) and the five initialisations that read them; an RSA key is a record of numbers (`RsaForm`), of which only that the numbers determine the key is assumed; making the CA's root certificate is not modelled | violated: a missing or broken crypto file, `null` files and unrelated JSON objects start a process; `Generateall` ignores its MRD. partial: exactly when each process starts and with what; generated files start all processes as generated, and these interoperate |
| C144 | `Model/MapFiles.lean`: the table of addresses as JSON (`map[int]string`) and `Map_all` over the texts of all files, in its order, with the places where it ends; writing to the disk succeeds | violated: a table that is not JSON is not refused and maps everybody to an address without host; `Map_all` cannot be run a second time, and leaves half the deployment mapped when a file is missing. partial: a written table is read back; after `Map_all` over generated files every process starts under its mapped address with the old port, timing and secret keys, and the processes interoperate. `Model/MapTree.lean`: the same on the file tree, so generation, mapping and start are composed: every program started in its directory has its mapped address; without a deployment nothing is written |
| C145 | `Model/MonConc.lean`: the goroutines of a monitor in any order; a query fails at any time after it was sent | violated: a query is not bounded in time, so two queries of different periods can fail in the same period and give two accusations for it. partial: never more accusations of an entity than queries times its entries in the two lists, hence none of an entity in neither list |
| C146 | `Model/CATick.lean`: rounds of a CA that overlap, step by step, with messages, requests and revocations between | proved: invariant (vector well formed, pool represents a list) over all schedules, and a rank that every own step of a round lowers; that a step succeeds rests on `X.Laws`; data races on the maps are outside (C129) |
| C147 | `Model/Verify.lean`, `Model/Crypto.lean`: verification of FRAG objects; `Model/Gossiper.lean`: how they are made | violated: the Signer field, the period and the kind of FRAG are not covered. partial: accepted exactly if the fragment verifies on the whole payload under the key of the id inside the signature; with genuine keys it is that key's signature; own fragments are accepted |
| C148 | `Model/Saves.lean`: the log as JSON (seconds with milliseconds, integer keys in the order `encoding/json` sorts them) and `WriteData` on the tree of files, along any history | violated: the directory `Gossip_log` is never created; the minute is the key, so the next hour overwrites; bytes and times are those since the start. partial: on a path that can be written (as the test programs prepare it), exactly one record per minute, telling the state at the last end of that minute that had something to log; nothing else changes |
| C149 | `Model/Saves.lean`: `SaveToStorage` of a logger inside `Send_POIs_to_CAs`; the JSON of a certificate is an arbitrary function | violated: no program sets `StoragePath`, so nothing is written. partial: on a path that can be written, the file is the certificates of the last round that posted a proof |
| C150 | concurrent machine (`Model/GossiperConc.lean`) and sequential machine (`Model/Gossiper.lean`): panics on goroutines that net/http does not protect; assumed of the libraries: FastAggregateVerify on a signature that is not nil returns, and JSON accepts what `ThresholdSig.String` writes (proved for the JSON modelled, `aggChecks_json`) | violated: a wipe that overtakes an aggregation, reached with one fragment nobody signed; every other scheme. partial: no sequential history ends the process; a schedule ends it only if the wipe is executed between the decision to aggregate and the reading of the fragments |
| C151, C152 | monitor in single steps (`Model/MonConc.lean`), client (`Model/Client.lean`); assumed of the libraries (`Lib.Panics`): crypto/rsa panics exactly for the zero public key that the code reads for an unregistered id (Go 1.19), FastAggregateVerify exactly on a nil signature | violated: one object made without any key ends every monitor that gets it as an answer and every client that meets it in a certificate or update; a revocation with an empty SRH. partial: posts of the gossiper and timers end no monitor, in any interleaving, and which answers, updates and certificates end the process is stated exactly (`Props/Survives.lean`) |
| C153 | the issuing functions and `SignAllCerts`, over all histories of the sequential CA; of crypto/x509 also that a certificate has the key and the CA flag it was made with | proved: order, subjects, keys, key ids, flags and extensions of all certificates sent; the final ones by an invariant over the pool |
| C154 | as C27 and C32: the sequential gossiper, its own timers included, and the log entry written by the periodic task | `_partial`: exact counts by an invariant over all histories made of the period's statements and genuine fragments (at most one FULL key per entity, since FULL objects are only made at the step from Threshold-1 to Threshold), in optimisation mode for REV_FRAGs, stripped or not, that follow their REV_INIT; violated with the default optimisation settings, where a REV_FRAG that overtakes its REV_INIT is lost, and for concurrent duplicates |
| C155 | `Model/MonRestart.lean`: `InitializeMonitorContext` over existing files, `LoadOneStorage` on the bytes of a file, the text of CRV.json | violated: in every history all files a monitor writes are refused by its own loader, and a restarted monitor accuses an honest CA that ever revoked a certificate. partial: stores written as lists would be restored exactly |
| C156 | as C57 and C115: the CA with its vector and delta, the concurrent gossiper | violated: revocations for the same minute of two hours convict the CA if anything new was revoked in between, or if the first was the CA's first one. partial: if nothing new is said for a label that comes again the two are one object, and no schedule convicts the CA |
| C157 | `Model/GenFiles`: the directories and files of Generateall on the file tree of C109, the paths of the programs | partial: with an empty config_path every process is found, from the directory and from those below, and starts as in C143; exact frame. violated: under another config_path nothing is written and nothing reported; processes of an earlier, larger deployment are still found |
| C158 | `Model/Latency`: the loop of GetRandomLatency with its formula over fractions, guarded as by its five callers. Exact arithmetic instead of float64 | partial: with Min < Max and 0 < Max the first fraction below one is taken, others are not, and the delay is Min plus that fraction of the range; nothing with Max = 0. violated: with 0 < Max ≤ Min, e.g. a fixed delay, no call returns |
| C159 | `Model/BlsId`: BlsID and CTngIDfromBlsID over the library's SetHexString and Serialize. Contract `BlsIds.Laws`: up to 64 hexadecimal digits are read as a number below the 255-bit order, nothing else is taken for another number, 32 bytes are serialized; `KeyLib.ByIds`: key derivation sees a name by its identifier only | partial: unique for names not beginning with NUL, accepted up to 31 bytes, both in full for generated gossipers (the hypothesis `hid` of the theorems on deployments). violated: key generation panics at a name of 33 bytes or more; a leading NUL byte is lost; CTngIDfromBlsID gives back no name that is not 32 bytes long |
| C160 | `Model/CAKeys`: the key maps of a round, CurrentKeyPool beside the state of the CA, SaveToStorage on the files of `Model/Pem`. Not modelled: the two JSON files at StoragePath1 and 2 | partial: rounds that do not overlap, by an exact invariant for the pool (subjects and keys by position), ids from C153, distinct file names. violated: a round that begins before the end of the one before it forgets keys of certificates in the pool; saving panics |
| C161 | `Model/TestRun.lean`: the waits, settings and lifetime of the programs of the network tests on the time line of `Model/Schedule.lean` | partial: arithmetic on times, then C118. From the tenth minute of an hour on, started in one minute, with small delays, logger and CA answer the first queries with statements of the date the update will have, and the update is written before the program ends (and no second one if the monitor starts in the first forty seconds). Violated: the first ten minutes of an hour, a logger started in the next minute, the second and third test from fifteen monitors on |
| C162 | the models of CA, logger, monitor, gossiper and client together (`Props/EndToEnd.lean`) | partial: C77, with one signed certificate for all clients, joined with C116; the verification keys of monitors and clients are those of the CA. Proved for the minutes 10 to 59, signatures completed in the minute of the statements, clients without a vector of the CA. The rest is false: C77_violated_padding, C116_violated_next_minute, C117_violated_first_minutes, C117_violated_later_revocation |
| C163 | concurrent machine of `Model/GossiperConc.lean` (`Props/Quarantine.lean`) | proved: invariant of all schedules that no handler is past the blacklist check with an object of the entity; every program point passes its own object on. The answers to payload requests and handlers already past the check are excluded in the statement (C17, C26 show both happen) |
| C164 | network of `Model/Network.lean` (`Props/ConvictionFinal.lean`) | proved: C37 (the proof reaches everybody) and C163 at every gossiper, whose part of a network history is a schedule of its own |
| C165 | concurrent machine (`Props/OneFull.lean`) | partial: invariant of all schedules, from the moment a FULL object is held and no handler is between its count and its posting; two handlers that both have counted violate it, and so do FULL objects that do not verify (C25) |
| C112 | `verifyCTngExt` on certificates made from revoked ones | violated: the id is read from the extension, which no checked signature and no proof covers; an id beyond the vector is accepted. partial: changes that keep issuer and extension |
| C113 | `Model/ClientFetch.lean`: `FetchCertificate`, `FetchGossip` on every outcome of the request | violated: no error without TLS, a crash without certificates. partial: what is returned, by cases; gossip exactly |
| C106 | sequential gossiper; pair of serial gossipers | partial: forwarded versions alternate in Signer, closure of the invariant under every handler; violated: cycle of four deliveries, induction on the number of laps |
| C91, C92 | serial network (`Model/NetworkSerial.lean`), each run of which is a run of the concurrent network; concurrent network for the violations | induction over histories: what a gossiper holds about the entity is genuine, own fragment signed or timer armed, kept fragments arrived or in flight; counting distinct fragments at quiescence. Violations by explicit schedules of three gossipers; with the default settings of the optimisation C91 fails for revocations even in the serial network: fragments that overtake the update are filed under no entity; it holds when every fragment finds the update saved (`NetInOrder`; the same induction, with what is posted shortened and what is received completed from the saved update) (`Props/NetworkOpt.lean`) |
| C91, C92 (concurrent), C100 | concurrent network (`Model/Network`), all interleavings of program points | `Proofs/NetworkConc*`: per gossiper, every obligation of the round (own signature, kept fragment, FULL object, report to the owner) is fulfilled or lies on a goroutine behind program points that cannot panic (`Under`); across gossipers, a kept fragment has arrived, is on a goroutine, is in flight or is about to be sent. C91, C92 hold unless a running gossiper counted a fragment twice (`DistinctFrags`), which is the only obstacle |
| C93 | `handleFrag` with `hasAggregated`/fragment counts as written | violation: a reachable state holding the FULL object keeps and forwards a later fragment (the handler looks the FULL object up under the fragment's own type); partial: with Threshold fragments held nothing is kept or sent |
| C94 | `convergeTime`, `convergeTimeInit` counters of the gossiper state and its log entries | partial: invariant over histories where each logger and CA has one outcome per period and all are of the current period, then pigeonhole; violations: one entity counted twice, objects of an earlier period counted, time overwritten by a later event |

Monitor and client (`Model/Monitor`, `Model/Client`):

| id | modelled | proof |
|----|----------|-------|
| C39, C41, C42-C46 | monitor event machine | induction over histories; C39, C44, C46 violated, partial versions |
| C40 | store functions | map lemmas; violated for temporary types |
| C47 | `VerifySRH` | iff with independent predicate |
| C48 | monitor and client vectors with the discarded union | violated in general; first delta proved |
| C78 | whole monitor histories, `Published` = some period end wrote the update | partial: invariant from delivery to the next period end; violated: a proof arriving after the update of its minute is dropped at the next period end and then counts as a duplicate for ever |
| C49-C53, C81-C83 | client with explicit locks and database files | iff for acceptance; C49, C51, C52, C53 violated in parts |
| C84 | certificate check with Merkle soundness | partial: subject was logged (or explicit collision); violated for the rest of the certificate |

CA, logger, pool, tree (`Model/CA`, `Model/Logger`, `Model/X509`, `Model/Merkle`):

| id | modelled | proof |
|----|----------|-------|
| C54 | issuing counter over histories | induction |
| C55, C56 | bit vectors with pointer cells (aliasing of `CRV_pre_update`) | induction; C56 violated from the second period |
| C57, C85 | CA publication against `VerifySRH` at monitors and clients | first period partial (also with the JSON bytes of the objects, `Props/WireHonest.lean`); violated later, and for minutes 0-9 at clients |
| C58, C59 | request decision tables, minute clock | iff against a request-counting spec; C59 violated at minute 0 |
| C60, C86 | extension updates, CA pool | induction; violated without extension / for forged proofs |
| C61-C63 | Merkle tree of the used library version, abstract hash | induction on levels, explicit collision extraction |
| C64, C65, C75 | logger rounds | C64 violated below two certificates, C65 not checked, C75 violated for repeated key ids |
| C66, C67 | CertPool machine with indices | refinement of an entry list; C67 violated for certificates without DER bytes |
| C76, C77 | statements and certificates from issuing to the client | composition of the above |

Wire and disk (`Model/Json`, `Model/JsonIndent`, `Model/Wire`, `Model/WireNet`, `Model/WireMonitor`):

| id | modelled | proof |
|----|----------|-------|
| C80 | client update files, `requestupdate`, `LoadUpdate`, `FetchClientUpdate` on bytes | fetching fails for every reply; partial: files read back, by an invariant that everything kept is text |
| C95 | the gossiper network with JSON request bodies | simulation of the byte network by the object network; violated by identifiers that are not UTF-8 |
| C96 | handlers on undecodable bodies | gossiper by cases; violated at the monitor, which goes on with the part that decoded |
| C97 | `GetRootHash` | violated for every logger's tree head (hex payload); partial for plain JSON |
| C98 | `SaveStorage` directory numbers (`periodIO`) with `GetCurrentPeriod` on instants | violated (numbers come back after an hour); numbering before the wrap-around and preservation over any history without that minute proved |
| C99 | `LoadOneStorage` | contents exact for every list; violated: always reports an error, checks no type; the same for the text of every list file (`Props/MonRestart.lean`) |
| C101 | `IsOwner` on byte strings | exact for addresses without brackets; violated for "[::1]" anywhere and for IPv6 hosts |
| C102 | `findPotentialParents`, `AppendCertsFromPEM` (X.509 parser as parameter; PEM decoder of `Model/Pem`) | proved by refinement to the entry list of C66; the decoder makes progress on every text |
| C103 | Logger periods, tree heads sent to CAs | proved by induction over histories |
| C107 | `Model/Pem`: `encoding/pem` encoder and decoder on bytes, certificate and key files | proved: the decoder inverts the encoder for every content, induction over lines |
| C108 | `ReadCertificateFromDisk` | partial: holds for files with certificates only, and what is returned is always the content of a whole block of the file; violated: the type of the block is not looked at |

`Model/Json` is a model of `encoding/json` as documented for Go 1.19: lexing, strings with escapes and replacement of
invalid UTF-8, numbers, HTML escaping on output, first-value decoding of a stream, indented output; `Model/Wire` gives the JSON
form of each type (field order, `omitempty`, case-insensitive field names, `[]byte` as base64, what is left in the
target after an error). With it `L.JsonLaws` and the JSON parts of `X.Laws` are theorems (`json_laws`, `xjson_laws`) about
`L.withJson` and `X.withJson`, so every theorem with `J : L.JsonLaws` also holds with the JSON package as modelled.
`Spec/JsonGrammar` states the grammar of JSON (RFC 8259, with Go's replacement of invalid UTF-8 and lone surrogates) apart from the
reader; `parse_iff` proves that the reader accepts exactly that language with the values it gives, and C80, C96 and C113 are
stated with the grammar.

Generators, keys, utilities (`Model/Gen`, `Model/CryptoIO`, `Model/Util`):

| id | modelled | proof |
|----|----------|-------|
| C68-C70, C89 | configuration generators and address mapping over lists | induction, arithmetic on URLs; C69, C70 violated in parts |
| C71, C87, C88 | key generation, save and read of configurations | contracts of key library, disk and JSON |
| C104 | key generation, which draw or share each entity gets | partial: distinct draws give distinct keys; violated: the first `threshold` threshold keys determine all others |
| C72 | RFC3339 fields, period strings | arithmetic; violated notation in the first ten minutes |
| C73 | bits to bytes and back | induction; violated length and block skipping |
| C74 | random positions, stream-driven sampling | induction; termination and divergence characterised |
| C90 | the same network as C38, notification / request / answer, payload cache | partial: invariant over eight stages of the exchange, any object size; violated: chunked posts, copies without signer name |
| C109 | `Model/FileTree`: file tree, path strings, `DeleteFilesAndDirectories` with any listing order | proved: induction on depth with a loop invariant |
| C110 | the same, `CreateDir`, `CreateFile`, `WriteData`, `SaveStorage` | partial: invariant over saves if no file is in the way; violated: failures are silent |

## Trusted base

* Lean's kernel, and for each theorem the axioms `propext`, `Classical.choice`, `Quot.sound` at most (no `sorry`, no
  axioms of our own, no `native_decide`).
* The reading of the Go code into the definitions under `Model/` (each cites its lines and states its simplifications).
* The contracts above, where a theorem has them as hypotheses.

## Not modelled

HTTP transport, TLS, file-system failures, console output, process start-up apart from the waiting times, what a
data race does once it has happened (C122, C128 and C129 say where races are possible), running out of memory (a delta that announces a huge length makes
`UnmarshalBinary` allocate it; a compressed text may unpack to any size), and the test drivers. Details are in the comments of each definition.
