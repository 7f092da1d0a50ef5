# Formal model of sailfishos/buteo-mtp in Lean 4 — design

The code in /repo is C++/Qt. It is neither built nor run here; the model is a hand translation, function by
function, and every definition of the model cites the file and lines it models and says where it simplifies.

## How to read this directory

* `properties.jsonl` — the properties, in terms of what a host or a device user observes.
* `lean/Verif/Model/*.lean` (namespace `Mtp`) — the model: total, computable functions and plain structures.
* `lean/Verif/Spec/*.lean` (namespace `Spec`) — small independent specifications (the wire format as a host parses it, a
  FIFO, a well-formed tree, a map with invalidation, the Gregorian calendar, a copy of a tree ...), written without the
  model's helpers. `Spec/Host.lean`, `Spec/Wire.lean`, `Spec/Datasets.lean` are the *host's* reading of the bytes.
* `lean/Verif/Lemmas/*.lean` — helper lemmas and invariants.
* `lean/Verif/Props/*.lean` (namespace `Props`) — the property theorems, named `Cnn_...`, with concrete non-trivial cases
  beside them (`Cnn_witness...`: the hypotheses are met and the effect is the expected one).
* `MANIFEST.json` — property → theorems; `seeded/LOG.jsonl` — wrong programs tried against the theorems;
  `scripts/` — generators of the manifest, of the tables below and the mutation runner.

Naming: a theorem that proves part of its property ends in `_partial` and says what is missing. Where the *code*
violates the property as a user would state it, a theorem ending in `_violated` proves it, by a concrete execution of the
model (or for a whole class of executions); the property is then `partial` in the manifest although nothing of it is left open:
the remaining part is false of the code.

## Conventions of the model

* C++ fixed-width arithmetic is modelled with `Nat` and an explicit `% 2^16`/`% 2^32`/`% 2^64` wherever the code can wrap;
  `size_t` is 64 bit (LP64, aarch64/x86_64 targets); `char` signedness is a parameter where it matters (C12).
* Undefined behaviour (reads/writes outside an allocation, reads of bytes never written) is a distinct outcome,
  `Res.ub`, in the container code, never assumed away; in the storage tree, use after free is reported by an extra
  flag (`C19_format_use_after_free_violated`), null dereferences by a distinguished outcome cited at the definition.
* Heap memory of containers is a list of `Option UInt8`; `none` is an uninitialised byte.
* Allocation failure (malloc/realloc/new returning null or throwing) is not modelled.
* The little-endian branch (`#ifdef LITTLE_ENDIAN`) is the one modelled.
* What the outside world answers (short reads and writes, errors, refusals to create/rename/remove, free space, mount tables,
  time zones, replies of the thumbnailer, thread schedules, arrival order of USB events) is a parameter or an arbitrary
  list of answers, quantified over in the theorems, never fixed.
* Recursive C++ functions over pointer structures get a fuel argument where Lean needs one; a theorem shows that the fuel
  is never exhausted (deletion, moving) or exhaustion is a distinct outcome (`none` in `Cp.copyTo`, where the code can
  really recurse without end: `C71_into_itself_violated`).
* Qt containers: `QHash`/`QMap` are association lists (`AMap`) with lookup, insertion and removal; where iteration order of a
  hash matters, the list order is arbitrary. `QString` is a list of UTF-16 code units in the wire code and a list of characters in
  the storage code.

## What is modelled, module by module

| model | code |
|---|---|
| Basic | fixed-width arithmetic, UB outcome, byte memory |
| Codec, Transfer, RawData | protocol/mtpcontainer.cpp, mtptxcontainer.cpp, mtprxcontainer.cpp: constructors, `serialize`, `expandBuffer`, all `operator<<`/`>>`, `append`, `params`, `buffer`, `seek`, copying of raw payload |
| ObjInfo, PropDesc | mtptypes.h datasets and their serialisation, `serializeVariantByType`, `deserializeVariantByType`, form fields |
| Ids | mtptypes.h `MtpInt128`; storagefactory.cpp handle and persistent-id counters |
| Cache | objectpropertycache.cpp, all functions |
| Factory | storagefactory.cpp: property reads/writes with cache, storage events, routing of requests to storages |
| Tree | fsstorageplugin.cpp: addToStorage, addItem, deleteItem(+Helper), removeFromStorage, getObjectHandles, moveObject, adjustMovedItemsPath, setObjectPropertyValue (file name), isFileNameValid, handleFSCreate/Delete/Move, linking, symbolic-link policy, exclusion |
| TreeQuery | storagefactory.cpp/mtpresponder.cpp object handles and numbers; fsstorageplugin.cpp object references |
| Copy | fsstorageplugin.cpp copyObject, copyHandle, moveObject across storages, watches; storagefactory.cpp copyObject |
| Facts | fsstorageplugin.cpp: populateObjectInfo (format, size, dates, thumbnail fields), what renews it (writeData, writePartialData, truncateItem, handleFSCreate/Delete/Move/Modify), createFile, file_set_mtime; notifications queued and delivered at any later time |
| Server | the responder (mtpresponder.cpp), the storage factory and one FSStoragePlugin with its files, put together: SendObjectInfo, SendObjectPropList, SendObject, GetObject, GetPartialObject, GetObjectInfo, GetObjectHandles, DeleteObject, MoveObject, CopyObject, rename, edits, with the dates of the files and arbitrary answers of the file system |
| ServerProps | the same server with object properties: getObjectPropertyValueFromStorage, setObjectPropertyValue, the factory's cache of values in front of them and what empties it (storagefactory.cpp), GetObjPropValue, GetObjectPropList, SetObjPropValue, SetObjectPropList and the values of SendObjectPropList (mtpresponder.cpp) |
| Device | the server of ServerProps with object references, device properties, device and storage information and the descriptions of object properties behind the responder: every operation but the thumbnail's, in one program |
| DeviceStart | the two files a device writes when it ends and reads when it starts, and its start from them and from the directory found (one storage): fsstorageplugin.cpp:387-488, 518-655, 2455-2603, storagefactory.cpp:130-217 |
| Startup | fsstorageplugin.cpp enumerateStorage_worker and populateObjectInfo: that server after reading its directory |
| ServerLocal | that server while other programs change its directory: handleFSCreate, handleFSDelete, handleFSModify, handleFSMove with what they do to the information kept and the events they emit (fsstorageplugin.cpp:2309-2373, 2882-3080), dispatchEvent (mtpresponder.cpp) |
| Storages, StoragesStart | storagefactory.cpp: several FSStoragePlugins behind one responder — which storage a request goes to, the handles and ids they share, requests to all of them, ids and enumeration at the start |
| ServerAcross | fsstorageplugin.cpp copyObject, storageplugin.cpp copyData from another storage: what happens on the destination, with all files and facts |
| ServerMoveAcross | fsstorageplugin.cpp moveObject to another storage, copyHandle; storagefactory.cpp moveObject; mtpresponder.cpp moveObjectReq: both storages, with all files and facts. Simplified: the host does not cancel during the move |
| FileIO | fsstorageplugin.cpp readData, writeData, writePartialData, truncateItem; storageplugin.cpp copyData |
| Download | mtpresponder.cpp getObjectCommon, sendObjectSegmented, GetObject, GetPartialObject(64) |
| Responder | mtpresponder.cpp: the state machine — receiveContainer, commandHandler and all request handlers with their data phases, sendResponse, sendContainer, cancel, suspend/resume, events, storage readiness, device status |
| Interrupt | mtptransporterusb.cpp sendData re-entering the event loop: the answers of the Responder model with transport events during each write (elsewhere a write is one step) |
| Link | mtptransporterusb.cpp processReceivedData together with the responder: what each piece of the stream does, resets of the transporter included (`fetchObjectSize` 2730-2744) |
| Control | threadio.cpp 67-81 and 186-308 (status answers, setup requests), the status slots and suspend/resume of mtptransporterusb.cpp 513-538; not the FunctionFS system calls |
| PropPod, PropList, PropSet | propertypod.cpp object property tables; mtpresponder.cpp GetObjectPropsSupported/PropDesc/PropValue/PropList, Set…, SendObjectPropList |
| DevProps, Datasets | device properties; GetDeviceInfo, GetStorageIDs, GetStorageInfo, GetObjectInfo, GetObjectHandles, references as bytes; mtpdeviceinfo.cpp, deviceinfoprovider.cpp, xmlhandler.cpp |
| Dates, Decimal | fsstorageplugin.cpp date conversion; number formatting |
| Notify | fsstorageplugin.cpp inotify slot, free-space events; fsinotify.cpp; storagefactory.cpp readiness |
| Thumb | thumbnailer.cpp |
| Persist | fsstorageplugin.cpp: files of persistent ids and references |
| Labels | fsstoragepluginfactory.cpp |
| Ring, Usb | transport/usb/threadio.cpp and mtptransporterusb.cpp: receive buffer shared by two threads, framing, bulk writer, interrupt writer, event gating |

## What is not modelled

* mts.cpp, service.cpp (process start-up), trace.cpp (logging), mtpcontainerwrapper.cpp, mtpextensionmanager.cpp (plug-in
  loading; no extension handles an operation), transport/dummy.
* threadio.cpp: opening and configuring the FunctionFS end points, descriptors, thread start/stop/signals; the
  ControlReader's system calls (its decoded requests are events of the responder model: cancel, reset, status).
* fsstorageplugin.cpp: event-loop re-entry during enumeration (`processEvents`), file ownership, MTP playlists on disk (only that they are not written back, C57), Tracker/metadata queries other than
  the properties listed in Factory/PropSet, `excludePath` file parsing.
* Time-outs and timers except where a property is about them (C47, C52, C55): their firing is an event.
* Allocation failure, integer `int` overflow of years, errors while writing the id files (the file is emptied by the
  code; a file cut anywhere is covered).
* Trusted as correct: the C library calendar and Qt's UTF-16 import are written out in the model (and the calendar proved against
  the Gregorian rules); Qt's XML reader/writer (gives back the text written), QFile/QDir as the POSIX calls they wrap,
  the kernel's inotify and FunctionFS as far as the events say.

## How each group is proved

| group | method |
|---|---|
| C01–C11, wire format | the writer refines an independent encoder; an independent parser inverts it; induction over lists; invariant (capacity, offset, initialised prefix) over any list of writes; UB exactly characterised |
| C12–C17, C59 ids, cache, factory | arithmetic; refinement of the cache to a function; coherence invariant over histories of reads, writes, events |
| C18–C26, C71–C75 storage tree | one invariant (`Spec.TreeWF`) kept by every operation; frame lemmas (`Grown`, `Shrunk`, `Relocated`) for what else changes; induction over histories, nested directory contents, subtrees |
| C76–C81 files and objects | the kernel's notification queue is part of the state; invariant "right, or a notification about it is waiting" over all interleavings of host, programs and deliveries; the names known after the queue is handled contain all files |
| C82–C92 end to end | the models above composed into one; every operation of the composition keeps `Spec.ServerOk`; lifted to all histories by a closure lemma for the responder (C88: a second one that follows which objects the host addresses) |
| C93 start-up | mutual structural induction over the directory tree: the objects after enumerating are exactly the inductively specified shown entries; then the start-up state satisfies `Spec.ServerOk` |
| C27–C34 contents | file as byte list, operating system as arbitrary answers; induction on segments and packets |
| C35–C43, C53 responder | step function over arbitrary events and an abstract device; invariants over all histories |
| C94 interrupted answers | the same step function with events at every write; frame lemma for events that end a transaction; equal to the uninterrupted one when there are none |
| C95 over USB | induction over the pieces with what is missing from the current container as the invariant, in step with the responder; then the end-to-end theorems of C82 |
| C96 status | invariant tying the responder's state to what was sent, over all histories; a predicate on all prefixes of the output for questions at any moment |
| C97 lists | the announcement with a list reduced to the list decoder of C65 and the object creation of C82; then the same transfer theorem |
| C98 given up | the upload is a run of packets of which none is last; the state in between keeps "announced, everything else untouched" (the invariant of C82); cancelling deletes exactly the announced object |
| C99 folders | the announcement lemma of C82 for an association: the tree after it is the old one with one childless object; children of the new folder are found from parents (tree invariant of C18), and the upload theorem of C82 is applied in the state after it |
| C100 properties | invariant "whatever is cached for this property is what the storage would say, and is about a handle that was given out", kept by every operation that does not spoil the property; which operations keep which values is a relation proved for every operation of the storage and lifted by the closure lemma of C82 |
| C101 copies | induction over the depth of the copied folder, inner induction over its children; the invariant lists pairs of an object and its copy, what is told about and held by both, and that everything else is as before; the byte loop is a separate induction over the length of the file |
| C102 changes on the device | one step lemma per kind of change (appears: the C74/C93 additions with what is known about them; vanishes: the dropped subtree; written: the file's bytes and what is known; moved: a relocation followed by new information), each preserving the invariant of C82 and the relation `Survives` of C88; induction over histories that interleave them with the host's requests; then the requests of C82 and C83 are answered from the resulting state |
| C103 several storages | a simulation (Lemmas/Sim, generic in what is behind the responder): if the calls the responder makes on the one side are, seen through a function, the calls on the other, so are all its histories (Lemmas/Sim goes through the whole state machine once); the storages satisfy it as long as requests concern one of them (Lemmas/StoragesSim), with the invariant that the others are unchanged and that new handles are larger than all given out before; the start by induction over the list of storages |
| C104 properties and files | the simulation of C103 between the server with properties and the one without (its calls change the objects identically except for property requests), and the survival relation of C88 carried over to the server with properties: setting properties is a sequence of renames as far as the objects are concerned |
| C105 copying between storages | the induction of C101 with a source that does not change; refusals and running out of space by following the objects outside of the place of the copy through every step (Lemmas/ServerLeft), so that deleting the copy gives the state before (Lemmas/ServerFull) |
| C106 moving between storages | two inductions over the moved tree: one that nothing is harmed, whatever happens, and files come over completely or the answer is not OK (Lemmas/ServerMoveAcross, `adoptTo_adopts`); one that nothing refused gives the graft of C105 with the same handles (`adoptTo_done`). The deletion of the original is C19 (Lemmas/StoragesMove) |
| C107 setting properties | the device's loop over the list is compared, element by element, with a relation that says what one element does (`SetTo`) or why it cannot be done (`Rejects`); the file name is C91's rename, told values are read from the cache (C63). The responder's data phase is C91's |
| C108 lists of properties | C60's proof about the list is split off its history (`list_true`): it needs only that what is cached about the properties asked for is true. That is C100's invariant (`talked_coh`), for one property or, without any spoiling operation, for all; the objects are C22's, the request is one step of the responder (C87's `query_answer_by`), and after it GetObjPropValue and GetObjectInfo are asked again (C100). |
| C109 references | the kept references are a relation between two states of the device closed under everything the responder does (`Rsp.Closed`, lifted from the server by `closed_server`): the list of `h` is the one set, without some objects that no longer exist, or `h` is gone; other SetObjectReferences transactions are one answer of the responder (C87's `set_answer_by`). What the host reads is C70's bytes. |
| C110 device properties | the device's properties move by `DevState.step`s only (closed under the responder), none of which touches the property unless it is set; then C66 and C67 for these steps, C67 also over the restart. |
| C111, C112 information | storage id, formats, limits, device information and storage description are the same before and after every step of the device (`closed_same`); the requests are one step of the responder each, in and out of a session (`Device.served`), with C54's, C68's and C69's bytes. |
| C113, C114 restarts | C14's and C56's/C57's invariants about ids (`IdsInv`), lifted to the device: every step of the server is one of the tree's plain operations (`naming_order`), a start is C56's/C57's restart (`start_restart`); a device `Booted` any number of times has them by induction. What is told: C100's invariant about cached values for the identifier, C109's relation for the references, before and after the restart. |
| C115, C116 whole device | C88's invariant `Survives` along every step of the server part of the device (`Device.sim`: without `ownOps` the device simulates its storage; with them `Device.spares_clear` by `Closed`), then C82's upload and download lifted by the simulation; C116 adds C93's start (`started_contents`) with the hypothesis that the directory still holds the file |
| C117, C118 whole device | C117: paths identify objects before (`TreeWF`) and after (C93_objects), so lying at the same path is a bijection; parents and names by taking the last name off the path (`join_inj`); listing by the simulation. C118: the simulation `Device.sim` backwards (`Rsp.sim_lift`), applied to C85, C89, C90, C91, C99, C101 |
| C44 dates | calendar arithmetic proved for all days; parsing inverts printing |
| C45–C52, C55 notification, threads, USB | small-step interleavings and event lists with invariants |
| C54, C60–C70 properties and datasets | tables by case analysis over all codes; end to end from stored values through serialisation to the host's parser |
| C56–C58 persistence, labels | byte-level round trip, all cuts; invariants of the label loop |

## Properties and theorems (generated by scripts/design.py)

<!-- BEGIN TABLE -->
| id | property | status | where | theorems | note |
|---|---|---|---|---|---|
| C01 | Integers survive the wire, little endian | proved | Codec.lean | `C01_integer_roundtrip`, `C01_signed` |  |
| C02 | Arrays survive the wire | proved | Codec.lean | `C02_array_roundtrip` |  |
| C03 | Strings survive the wire, within the MTP limit | partial | Codec.lean | `C03_string_roundtrip`, `C03_string_exact`, `C03_bom_violated` | Exact except that a leading U+FEFF/U+FFFE is consumed by Qt's UTF-16 import (C03_bom_violated). |
| C04 | 128-bit identifiers and arrays of them survive the wire | proved | Codec.lean | `C04_int128_roundtrip`, `C04_int128_array_roundtrip` |  |
| C05 | Object-info dataset survives the wire | proved | Codec.lean | `C05_objectinfo_roundtrip` |  |
| C06 | The length field of a sent container is its real length | proved | Codec.lean, RawData.lean | `C06_container_is_header_and_payload`, `C06_copied_payload` | For containers below 2 GiB (no dataset of the responder comes near). |
| C07 | Writing a container never overruns its buffer | partial | Codec.lean, RawData.lean | `C07_no_overrun_partial`, `C07_overrun_beyond_2GiB_violated`, `C07_seek_stays_inside`, `C07_seek_back_violated` | Proved up to 2 GiB; above, the 32-bit capacity arithmetic wraps and the buffer is overrun (violated); moving the write position back further than was written leaves the buffer (C07_seek_back_violated; no caller does). |
| C08 | Decoding a received container never reads outside it | partial | CodecIn.lean | `C08_complete_is_safe_partial`, `C08_incomplete_reads_outside_violated` | The code does no bounds check: safe iff the dataset is complete; both directions proved. |
| C09 | Container reassembly does not depend on packet boundaries | partial | CodecIn.lean | `C09_reassembly_exact`, `C09_no_overrun_partial`, `C09_first_packet_overrun_violated` | Reassembly exact for every packetization; a first packet longer than the length field overruns (violated). |
| C10 | Command parameters are decoded exactly | partial | CodecIn.lean | `C10_params_exact`, `C10_too_many_params_violated` | Exact for at most five parameters; more than five are stored out of bounds (violated). |
| C11 | Property descriptions are sent in the standard layout | proved | CodecIn.lean | `C11_device_description`, `C11_object_description` |  |
| C12 | 128-bit identifiers count and compare as numbers | partial | Ids.lean | `C12_increment`, `C12_equality`, `C12_order_partial`, `C12_order_signed_violated` | Exact on unsigned-char platforms; on signed-char ones < and > are wrong for bytes >= 128 (violated). |
| C13 | Object handles are unique and never a reserved value | partial | Ids.lean | `C13_handles_unique_partial`, `C13_wrap_violated` | Holds for the first 2^32-2 handles; the counter wraps to 0 and reuses handles (violated). |
| C14 | Persistent ids are never given to two objects, across restarts | partial | Ids.lean, Move.lean, Restart.lean | `C14_fresh_partial`, `C14_signed_char_violated`, `C14_move_violated`, `C14_rename_folder_violated`, `C14_recreate_violated` | Fresh ids while the 128-bit counter does not wrap; comparison of ids relies on unsigned char (violated). |
| C15 | The property cache behaves as a map with invalidation | proved | Cache.lean | `C15_cache_is_history`, `C15_other_objects_untouched` |  |
| C16 | Batched cache lookup partitions the request | proved | Cache.lean | `C16_batched_lookup_partitions`, `C16_each_code_once` |  |
| C17 | Property reads through the factory are never stale | partial | Factory.lean | `C17_reads_fresh_partial`, `C17_quiescent_reads_fresh_partial`, `C17_pending_announcement_violated`, `C17_set_not_applied_violated`, `C17_cross_storage_move_violated`, `C17_gone_refused` | Not stale under announced changes processed; pending announcements, unapplied sets and cross-storage moves are stale (violated). |
| C18 | The object tree stays well formed | partial | Tree.lean | `C18_well_formed_partial`, `C18_one_operation_partial`, `C18_slash_in_name_violated`, `C18_move_rename_violated` | Invariant over all histories, except a host name with '/' and a device move across folders with a rename onto an existing name (both violated). |
| C19 | Deleting removes exactly the subtree | partial | Delete.lean | `C19_others_unchanged`, `C19_exactly_subtree`, `C19_answer_partial`, `C19_leaf`, `C19_all`, `C19_rmdir_refused_violated`, `C19_vanished_folder_violated`, `C19_all_answer_violated`, `C19_format_answer_violated`, `C19_format_use_after_free_violated` | Exact when no system call is refused; OK although rmdir of the emptied folder failed, ghosts of vanished folders, answers of delete-all and a use after free are violated. |
| C20 | A handle denotes the same object for its life | partial | Tree.lean | `C20_frame_partial`, `C20_handle_stable_partial`, `C20_handle_not_reused`, `C20_other_object_violated` | Handles never reused: proved for all histories (below 2^32-1 handles). Stability proved for histories satisfying OpOk (see C18); violated by a device move with rename onto an existing name (C20_other_object_violated). |
| C21 | Moving an object keeps its handle and moves its whole subtree | partial | Move.lean | `C21_move`, `C21_rename`, `C21_rename_refused`, `C21_move_done`, `C21_move_refused`, `C21_rename_done`, `C21_rename_answer_violated` | Effect of move and rename exact; a refused physical rename is answered OK (violated). |
| C22 | Enumeration lists each matching object exactly once | partial | Handles.lean | `C22_storage_partial`, `C22_not_a_folder`, `C22_reply_one_partial`, `C22_reply_all_partial`, `C22_undefined_format_violated`, `C22_folder_all_storages_violated`, `C22_format_truncated_violated`, `C22_unknown_storage`, `C22_unknown_format` | Exact except format 0x3000 below folders, a folder handle with all storages, and format codes above 16 bits (violated). |
| C23 | The storage root cannot be deleted | proved | Delete.lean | `C23_root_stays`, `C23_root_refused`, `C23_history` | For any tree whatsoever; C23_history adds that the root survives all histories satisfying OpOk. |
| C24 | Host-chosen names stay inside their folder | partial | Names.lean | `C24_rename`, `C24_rename_refused`, `C24_create_partial`, `C24_create_outside_violated`, `C24_empty_name_violated` | Renames exact; names of created objects are not checked and can leave the storage (violated). |
| C25 | Symbolic-link policy is enforced | proved | Names.lean | `C25_enumeration`, `C25_later` |  |
| C26 | Object references only name live objects | proved | Refs.lean | `C26_query`, `C26_set` |  |
| C27 | Reading file data returns exactly the requested bytes | proved | FileIO.lean | `C27_read_exact`, `C27_past_end_refused`, `C27_read_succeeds` |  |
| C28 | Sequential upload stores exactly the sent bytes | partial | FileIO.lean | `C28_upload_exact_partial`, `C28_flush_violated`, `C28_after_failed_open_violated` | Exact for successful uploads; a failed flush is ignored and an upload after a failed open is reported OK (violated). |
| C29 | Partial write and truncate edit exactly the addressed range | proved | FileIO.lean | `C29_partial_write`, `C29_truncate` |  |
| C30 | Copying an object duplicates its contents or reports failure | partial | FileIO.lean | `C30_copy_exact_partial`, `C30_cancel_reported`, `C30_last_write_violated`, `C30_large_violated` | Exact below 4 GiB; the failure of the last write is masked and objects of 4 GiB and more break (violated). |
| C31 | An object download is the object, in bounded frames | partial | Download.lean, RawData.lean | `C31_download_exact_partial`, `C31_broken_never_ok`, `C31_download_succeeds`, `C31_large_violated`, `C31_unsent_violated`, `C31_wire_bytes`, `C31_wire_exact` | Exact below 4 GiB-12; larger sizes wrap in the header and an unsent first packet is not noticed (violated). |
| C32 | Partial download ranges are clipped to the object | proved | Download.lean | `C32_partial_exact`, `C32_partial64_exact`, `C32_partial_succeeds`, `C32_past_end_refused` |  |
| C33 | An upload is acknowledged only when complete | partial | Upload.lean | `C33_ok_complete`, `C33_complete`, `C33_incomplete_partial`, `C33_truncate_violated` | Complete uploads exact, incomplete ones refused and truncated; but closing the file re-extends it (violated). |
| C34 | Uploaded data goes to the object announced last | partial | Announce.lean | `C34_info`, `C34_list_partial`, `C34_mixup_violated`, `C34_refused_violated` | Data goes to the announced object for one announcement; a refused property list stays pending and mixed announcements go to the wrong object (violated). |
| C35 | Session discipline | partial | Session.lean | `C35_nothing_done`, `C35_session_not_open_partial`, `C35_open`, `C35_close`, `C35_suspended_violated` | All operations but GetThumb (never answered); commands that arrive while suspended or before storages are ready are covered by violations. |
| C36 | Every command gets exactly one response | partial | Response.lean | `C36_one_response_partial`, `C36_thumb_violated`, `C36_unsupported_data_violated`, `C36_broken_download_violated`, `C36_copy_reset_violated` | For hosts that follow the protocol, without GetThumb, and downloads that do not break off; each exception has a violated theorem. |
| C37 | Responses echo the transaction id | partial | Response.lean | `C37_tid_partial`, `C37_tid_violated` | Only the low 16 bits of the id are echoed by most operations (violated for ids >= 65536). |
| C38 | Cancelling an upload leaves no half object and frees the responder | partial | Cancel.lean | `C38_cancel_partial`, `C38_next_command`, `C38_nothing`, `C38_both_violated` | With one announcement pending; with both kinds pending only one is removed (violated). |
| C39 | Commands arriving before the storage is ready are served later, once | partial | Wait.lean | `C39_served_partial`, `C39_quiet`, `C39_in_order_partial`, `C39_at_once`, `C39_suspend_violated`, `C39_cancel_violated` | Exact if nothing but the command, its data and the readiness happens; a suspend or cancel in between loses the command or crashes (violated). |
| C40 | In-place editing requires an edit session on that object | partial | Edit.lean | `C40_edit_only`, `C40_truncate_refused`, `C40_partial_refused`, `C40_begin_end`, `C40_truncate`, `C40_partial_accepted`, `C40_second_begin_violated`, `C40_session_violated` | Exact within one edit session; a second BeginEdit and a session change break it (violated). |
| C41 | Change events are filtered per object and correctly addressed | partial | Events.lean | `C41_events_partial`, `C41_silent`, `C41_suspend_violated`, `C41_removed_violated`, `C41_edit_violated`, `C41_reset_violated` | Filter and addressing exact for every history outside suspension; removals are never filtered, events are lost in suspension, flags are re-enabled by GetObjectInfo and survive a reset (violated). |
| C42 | Busy/idle notifications alternate | partial | Busy.lean | `C42_alternate`, `C42_cancel_violated` | Strict alternation proved for every history; 'pending' stays on after a cancel or a suspend (violated). |
| C43 | Suspend and resume lose nothing | partial | Suspend.lean | `C43_continue_partial`, `C43_idle`, `C43_resent_partial`, `C43_copy`, `C43_copy_violated`, `C43_twice_violated` | State and container restored; after a resent response the responder hangs in the old state and double suspension sticks (violated). |
| C44 | Dates survive conversion | partial | Dates.lean | `C44_calendar`, `C44_years`, `C44_roundtrip_partial`, `C44_fixed_zone`, `C44_accepts_only`, `C44_local`, `C44_offset_partial`, `C44_offset_violated`, `C44_offset_example_violated`, `C44_ambiguous_violated`, `C44_seconds_violated`, `C44_no_such_day_violated`, `C44_utc_rejected` | Calendar arithmetic, parsing and printing proved for all dates; local-time strings round trip away from repeated/skipped hours; offset suffixes are mis-applied (violated), seconds fraction/no-such-day cases documented as violations. |
| C45 | Moves on the device are recognised by cookie | partial | Notify.lean | `C45_conservation`, `C45_pair_is_a_move_partial`, `C45_unpaired`, `C45_interleaved_violated`, `C45_last_moved_from_violated`, `C45_move_rename_violated`, `C45_move_effect_partial` | Conservation proved for all sequences; pairing only when adjacent (C45_interleaved_violated), last moved-from never flushed (violated), move+rename misplaced (violated). |
| C46 | Storage readiness is announced exactly when all storages are ready | proved | Notify.lean | `C46_ready_iff_all`, `C46_never_back`, `C46_announced_once` | Ids given by the factory are distinct; readiness in any order with repetitions. |
| C47 | Free-space events are throttled but never stuck | partial | Notify.lean | `C47_throttled_partial`, `C47_not_stuck_partial`, `C47_capacity_change_violated`, `C47_overflow_violated` | Fixed capacity below 2^64/100 bytes; violated when capacity changes or the product overflows. |
| C48 | The USB receive buffer is a lossless FIFO | proved | Ring.lean | `C48_lossless_fifo`, `C48_prefix`, `C48_reader_disjoint`, `C48_piece_is_stored`, `C48_read_accepted`, `C48_no_deadlock` |  |
| C49 | Container framing does not depend on how USB reads are cut | partial | Usb.lean | `C49_framing_partial`, `C49_cut_in_length_violated`, `C49_zero_length_violated` | Exact when no read ends inside a length field; a cut there and a zero length field break it (violated). |
| C50 | A bulk write delivers exactly the data or reports failure | partial | Usb.lean | `C50_success_iff_all`, `C50_zero_packet`, `C50_write_size`, `C50_zlp_failure_violated` | Everything but: failure of the terminating zero-length packet is reported as success (violated). |
| C51 | The event queue is a bounded FIFO that drops the oldest | proved | Usb.lean | `C51_bounded_fifo`, `C51_drops_oldest`, `C51_nothing_lost` |  |
| C52 | Event sending never runs alongside bulk traffic and gives up after three time-outs | proved | Usb.lean | `C52_start_conditions`, `C52_exclusive`, `C52_gives_up`, `C52_timeouts_count` |  |
| C53 | Advertised operations are implemented | partial | Datasets.lean, Dispatch.lean | `C53_shipped`, `C53_configured_violated`, `C53_advertised`, `C53_other` | Proved for the built-in operations and for the shipped configuration (C53_shipped). Violated: a configuration can name an operation the device refuses, which is then advertised (C53_configured_violated). |
| C54 | Advertised object properties can be described | proved | PropPod.lean | `C54_advertised_iff_described`, `C54_limits` |  |
| C55 | Thumbnails are requested at most once and never while busy | partial | Thumb.lean | `C55_order`, `C55_request_queued`, `C55_once`, `C55_not_while_busy`, `C55_batches`, `C55_all_sent`, `C55_reply_partial`, `C55_hash_violated`, `C55_unrequested_ignored`, `C55_failed_not_retried` | Order, once, batches of 128, never while busy, none lost proved for all event sequences; C55_reply_partial assumes the thumbnailer answers for the requested path; hash collisions of two paths lose a request (violated) and a failed thumbnail is never retried (violated). |
| C56 | Persistent ids survive a restart | partial | Persist.lean, Restart.lean | `C56_roundtrip_partial`, `C56_cut_partial`, `C56_cut_between`, `C56_no_overread`, `C56_non_ascii_violated`, `C56_cut_violated`, `C56_restart_partial`, `C56_run_partial` | Round trip and truncation proved for tables with ASCII paths; non-ASCII paths are truncated (violated), and a file cut inside an entry can give an entry that was not written (violated). |
| C57 | Object references survive a restart | partial | Restart.lean | `C57_restart_partial`, `C57_folder_violated`, `C57_playlist_violated`, `C57_shared_file_violated` | Proved for files of one storage found again at ASCII paths; violated for folders (ids never entered in the read-back table), playlists (not written) and several storages sharing the reference file (C57_*_violated). |
| C58 | Exported storages get distinct descriptions | partial | Labels.lean | `C58_distinct_partial`, `C58_slash_violated` | No two exported storages share a path string, label or id, for all configurations; the same directory written with and without a trailing slash is exported twice (C58_slash_violated). |
| C59 | Requests are routed to the storage that owns the object | partial | Factory.lean | `C59_handle_routed`, `C59_unknown_handle_refused`, `C59_owner_executes`, `C59_storage_routed`, `C59_deleted_object_violated`, `C59_root_ambiguous_violated` | Routing exact for known handles; a deleted or root handle is routed ambiguously (violated). |
| C60 | Property list responses announce the number of elements they carry | partial | PropList.lean | `C60_elements_partial`, `C60_no_elements`, `C60_mixed_violated`, `C60_all_objects_violated` | Proved end to end (table lookup, cached property reads, serialisation, count patch, host parser) for objects that all support the property; a mixed folder or the standard's all-objects form is refused (violations). |
| C61 | Every configured directory is exported | partial | Labels.lean | `C61_candidates`, `C61_exported_partial`, `C61_label_partial`, `C61_kept`, `C61_seventh_violated`, `C61_percent_violated` | Every directory asked for is exported exactly once when labels have no percent sign and no label is another one followed by a number; otherwise a directory can be dropped (C61_seventh_violated) or its label corrupted (C61_percent_violated). |
| C62 | Default values satisfy their own descriptions | partial | PropPod.lean | `C62_common_partial`, `C62_sample_rate_violated`, `C62_width_violated` | Holds for the common properties on every device; violated for sample rates and for image widths with a minimum. |
| C63 | A property that was set is told back | partial | PropSet.lean | `C63_set_then_get_partial`, `C63_refused`, `C63_bad_name`, `C63_file_name_lasts`, `C63_lost_violated`, `C63_not_renamed_violated`, `C63_root_violated` | Wire-level round trip proved; file names last through any reads. Values of properties without storage (display name, artist...) are forgotten when a neighbour is read (C63_lost_violated), a refused rename is answered OK (C63_not_renamed_violated), renaming a storage root dereferences null (C63_root_violated). |
| C64 | SetObjectPropList stops at the first element that cannot be set and names it | partial | PropSetList.lean | `C64_set_list_partial`, `C64_type_violated` | Proved for lists whose values have the types of the standard; the type sent by the host is not checked (C64_type_violated). |
| C65 | SendObjectPropList makes exactly the object announced | partial | PropSetList.lean | `C65_announcement_partial`, `C65_request`, `C65_values_kept`, `C65_form_violated` | Proved for file names of string type; a missing file name is refused without parameters and read-only properties are taken (C65_form_violated). |
| C66 | Device properties tell and take the truth | partial | DevProps.lean | `C66_described`, `C66_value`, `C66_unknown_refused`, `C66_set_then_get`, `C66_value_lasts`, `C66_battery_events`, `C66_read_only_violated`, `C66_advertised_violated`, `C66_battery_range_violated` | Reads, sets, persistence in memory and refusals of unknown codes proved for all states and histories; sets of read-only properties are answered OK (C66_read_only_violated), the copyright property is listed but refused (C66_advertised_violated), the battery level leaves its described range (C66_battery_range_violated). |
| C67 | The device's name survives a restart | partial | DevProps.lean | `C67_name_survives_restart`, `C67_history`, `C67_blank_violated` | Proved for names that are not blank, the XML library being trusted to give back the text written; a blank name reverts to the default (C67_blank_violated). |
| C68 | Device information is complete | partial | Datasets.lean | `C68_device_info`, `C68_operations`, `C68_builtin`, `C68_host_is_told`, `C68_bad_number_violated` | Full dataset, built-in operations and formats proved for every configuration. Violated: a configured operation code that is no number is advertised as operation 0 (C68_bad_number_violated). |
| C69 | Storage information is right | partial | Datasets.lean | `C69_storage_ids`, `C69_storage_info_partial`, `C69_fragment_size_violated` | Proved for file systems whose fragment size is the block size. Violated otherwise: the code multiplies block counts, which POSIX gives in fragments, by the block size (C69_fragment_size_violated). |
| C70 | Handle lists, references and object information reach the host | partial | Datasets.lean | `C70_handles_partial`, `C70_handles_refused`, `C70_references`, `C70_references_refused`, `C70_object_info_partial`, `C70_object_info_refused`, `C70_large_object_violated` | Handles with the exclusions of C22. Violated: GetObjectInfo tells the size of an object of 4 GiB or more modulo 2^32 (C70_large_object_violated). |
| C71 | CopyObject makes an exact, independent copy | partial | Copy.lean | `C71_copy_partial`, `C71_completes_partial`, `C71_nothing_lost_partial`, `C71_into_itself_violated`, `C71_folder_collision_refused`, `C71_overwrites_violated`, `C71_empty_not_copied_violated`, `C71_cancel_deletes_original_violated` | Proved for free destinations that are not inside the copied folder, and for storages where only folders contain objects. Violations proved: a folder copied into itself recurses without end; a file copied onto a same-named file overwrites it (or, when empty, is not copied) and answers OK; cancelling a copy into the own folder deletes the original. |
| C72 | MoveObject between storages keeps handles and contents | partial | Copy.lean | `C72_move_across_partial`, `C72_handle_lost_violated`, `C72_half_moved_violated` | Proved for OK answers at free destinations. Violations proved: an empty folder moved onto a same-named folder loses its handle although answered OK; a failure half way leaves handles in both storages. |
| C73 | Copying keeps folders watched | partial | Copy.lean | `C73_watched_partial`, `C73_unwatched_violated` | Proved for OK answers at free destinations. Violation proved: a copy failing half way leaves the destination folder unwatched. |
| C74 | Change events mirror the device's changes | partial | Changes.lean | `C74_created`, `C74_created_one`, `C74_removed_partial`, `C74_removed_one`, `C74_moved_partial`, `C74_own_silent`, `C74_mirror_step_partial`, `C74_mirror_partial`, `C74_violated` | Full statement violated: a folder with known contents that disappears is removed without an event (C74_violated). Proved: creation, removal of anything without known contents, moves to free places, silence of host operations, and the mirror over histories without such folders. |
| C75 | SendObjectInfo creates exactly the announced object | partial | Adding.lean | `C75_created`, `C75_no_parent`, `C75_excluded`, `C75_existing_partial`, `C75_existing_violated` | Full statement violated: if the name is taken by an object of another kind, the answer is OK with the handle of that object (C75_existing_violated). |
| C76 | Sizes and dates said are those of the files | partial | Facts.lean | `C76_size_once_settled_partial`, `C76_dates_once_settled_partial`, `C76_wrong_only_meanwhile_partial`, `C76_host_is_told`, `C76_saved_by_renaming_violated`, `C76_renamed_meanwhile_violated`, `C76_truncated_date_violated`, `C76_changed_by_name_violated` | Proved for all histories without the excluded steps; the event statement for all histories. Violations proved: saving by renaming over a file leaves size and date stale for good; a host rename before the change notification is handled does too; TruncateObject leaves the date stale; changes by name (truncate(2), utimes(2)) are never noticed. |
| C77 | The format said is the one the name stands for | partial | Facts.lean | `C77_by_extension`, `C77_case_does_not_matter`, `C77_once_settled_partial`, `C77_renamed_by_host_violated`, `C77_text_called_jpg_violated` | The function of the name is proved in full. Over histories: proved except for a rename by the host to a name with another extension, which keeps the old format (violation proved). |
| C78 | The announced format is kept | partial | Facts.lean | `C78_at_first`, `C78_forgotten_violated`, `C78_song_violated` | Holds at first (proved); violated as soon as the notification of the closed file is handled: the format is computed from the name. |
| C79 | Formats said are advertised formats | partial | Facts.lean | `C79_shipped`, `C79_any_configuration_partial`, `C79_unreadable_violated` | Proved for the shipped configuration, and for any configuration except for OGG. Violation proved: with an unreadable configuration OGG is said but not advertised. |
| C80 | Pictures have thumbnails whatever the case of their extension | partial | Facts.lean | `C80_lower_case_partial`, `C80_upper_case_violated` | Proved for lower-case extensions; violated for upper-case ones, whose format is recognised but whose thumbnail fields are not. |
| C81 | The objects are the files, however late notifications come | partial | Facts.lean | `C81_objects_are_files`, `C81_files_are_objects_partial`, `C81_deleted_meanwhile_violated`, `C81_renamed_meanwhile_violated`, `C81_uploaded_meanwhile_violated` | First part proved for every history; second part for histories without three races. Violations proved: a host delete before the rename notification loses the renamed file; a host rename onto a just freed name is forgotten; an object uploaded to a just freed name vanishes and comes back under another handle. |
| C82 | What is uploaded is what is downloaded | partial | Server.lean | `C82_upload_download`, `C82_others_kept`, `C82_overwrite_violated` | Proved end to end for the responder with one file-system storage behind it, for new objects of less than 4 GB and an operating system that does not fail; false for overwriting an existing object (C82_overwrite_violated). |
| C83 | What is announced is what is told | partial | Server.lean, Talk.lean | `C83_info_told_partial`, `C83_date_told`, `C83_capture_date_violated`, `C83_announced` | Conditions as in C82; the size is told modulo 2^32 (the dataset has no more). The date of modification is told as announced if utimes succeeds and C44 holds for the date (C83_date_told); the announced date of creation is replaced by it (C83_capture_date_violated). |
| C84 | What is uploaded is listed | proved | Server.lean | `C84_listed` | Conditions as in C82; at most 2^26 handles given out. |
| C85 | What is deleted is gone and nothing else is | proved | Server.lean, Talk.lean | `C85_deleted`, `C85_unknown`, `C85_delete_unknown` | For a file system that refuses, C19 and C23. |
| C86 | Only uploads, edits, copies and deletions change objects | proved | Server.lean | `C86_contents_kept` | For the responder with one file-system storage behind it (operations modelled in Verif.Model.Server). |
| C87 | Disk and objects agree | proved | Server.lean | `C87_disk_and_objects_agree` | While handles are left, and nobody else changes the disk (for that C74, C81). |
| C88 | Objects that are not addressed survive | partial | Survive.lean | `C88_survives`, `C88_upload_survives`, `C88_cancelled_announcement_violated` | Proved, with cancellations allowed only when no announced object contains the object: without that it is false, cancelling an announcement deletes a folder announced earlier with all that was moved into it (C88_cancelled_announcement_violated). |
| C89 | Parts of files are downloaded exactly | proved | Talk.lean | `C89_parts`, `C89_parts_refused`, `C89_upload_parts` | For files below 2^63 bytes, the operating system not failing. |
| C90 | Counting agrees with listing | partial | Talk.lean | `C90_count`, `C90_count_is_length` | Storage given (not 0xFFFFFFFF), and not the undefined format together with a folder (see C22); equality of number and list for any format. |
| C91 | Moving and renaming end to end | proved | Talk.lean | `C91_move`, `C91_move_reasons`, `C91_listed_where_moved`, `C91_rename`, `C91_rename_unknown`, `C91_rename_all_or_nothing` | One storage; the file system refuses the impossible (rename(2)). A rename the file system refuses is answered OK by the code; that is why the statement about renames is about their effect. |
| C92 | Editing a file in place end to end | proved | Talk.lean | `C92_begin_end`, `C92_truncate`, `C92_send_partial`, `C92_begin_unknown`, `C92_edit`, `C92_date_kept` | Positions and data below 2^63 bytes; the operating system may fail (then other objects are as before), but does not lose what it took. The date is kept if utimes succeeds and C44 holds for it. |
| C93 | After the start, exactly the storage directory is shown | proved | Startup.lean | `C93_consistent`, `C93_objects`, `C93_download`, `C93_info`, `C93_listing`, `C93_folder`, `C93_session` | One storage; downloads below 4 GiB, the operating system not failing; the disk is read at one moment (changes meanwhile: C81). What a symbolic link leads to is treated as a file of its own. |
| C94 | Giving up in the middle of an answer is safe | partial | Interrupt.lean | `C94_undisturbed`, `C94_interrupted_partial`, `C94_storage_untouched`, `C94_completed`, `C94_keeps_sending_violated`, `C94_crash_violated`, `C94_stuck_violated`, `C94_partial_object_violated` | Violated: the rest of a cancelled download is sent all the same; answers whose response has a parameter (GetPartialObject) dereference the forgotten request; a write that fails while nobody gives up leaves the responder waiting, and the next command is lost. Suspend/resume during writes and storage changes meanwhile are left out. |
| C95 | Over USB the bytes are the conversation | partial | Link.lean | `C95_stream`, `C95_taken`, `C95_upload_download`, `C95_large`, `C95_large_violated`, `C95_data_obeyed_violated`, `C95_cancel_violated`, `C95_trojan_violated` | Violated: when an upload is answered before its data has come (e.g. storage full) the rest of the file is parsed as containers, so commands in the file are executed; after a cancel in the middle of data the next command is swallowed as the rest of it. Containers of 4 GB and more (marker length) have their own theorem: their end is seen when the object was announced by SendObjectPropList, not when by SendObjectInfo (violated). |
| C96 | The device status tells the truth | partial | Control.lean | `C96_answers`, `C96_busy_while_talking`, `C96_ok_means_ready`, `C96_busy_iff_pending`, `C96_unplugged_violated`, `C96_unanswered_violated`, `C96_resume_violated`, `C96_cancel_any_violated` | Violated: unplugging during a transaction leaves the status busy for the next host; an unanswered GetThumb leaves it busy while commands are thrown away; suspending and resuming in the middle of a transaction makes it OK; a cancel request cancels whatever is pending, since the transaction named in it is not read. The theorems about histories leave out suspending. |
| C97 | What is uploaded after SendObjectPropList is what is downloaded | partial | ServerList.lean | `C97_upload_download`, `C97_info_told`, `C97_announcement`, `C97_mixup_violated` | Violated: after a SendObjectInfo whose data never came, the data goes to that older object instead (C97_mixup_violated); the theorems assume no such announcement is waiting. Setting the other listed properties is a no-op in this model (see C64, C65 for them). |
| C98 | An upload that is given up leaves nothing behind | partial | GivenUp.lean | `C98_cancelled`, `C98_cancelled_list`, `C98_not_answered_before`, `C98_unplugged_violated`, `C98_folder_lost_violated` | Proved for cancel requests. Violated when the host is unplugged instead (the half-written file stays, C98_unplugged_violated) and when the announcement itself is cancelled after a folder was made (the folder and what is in it are deleted, C98_folder_lost_violated). |
| C99 | A folder a host makes is there, empty, and can be filled | partial | Folders.lean | `C99_made_partial`, `C99_listed`, `C99_filled`, `C99_file_there_violated` | Proved except for the dates: those announced for a folder are not told. Violated when a file has the name already (the host is told OK with the handle of the file, C99_file_there_violated). |
| C100 | What the device says about a property of an object is what it says about the object | partial | ServerProps.lean | `C100_told_partial`, `C100_new`, `C100_edited`, `C100_identifier`, `C100_edit_violated`, `C100_failed_violated`, `C100_listed_violated` | Proved for histories without the operations that may spoil the property (uploads announced with a list; for size and dates: uploads, edits and copies; for the name: setting properties). Violated for these: stale size during an edit, the announced size of a failed upload, values sent for read-only properties with SendObjectPropList. |
| C101 | A copy is complete, is where it was asked for, and harms nothing | partial | Full.lean, ServerCopy.lean | `C101_full`, `C101_no_room`, `C101_copied`, `C101_downloaded`, `C101_dated`, `C101_listed`, `C101_refused`, `C101_overwritten_violated`, `C101_cancelled_violated` | Files below 4 GB (copyData counts with 32 bits, C72), storage at rest otherwise, one storage. Violated: copying a file onto a file of its name overwrites that, and cancelling such a copy deletes it. |
| C102 | Changes made on the device reach a connected host, and do no harm | partial | ServerLocal.lean | `C102_consistent`, `C102_survives`, `C102_upload_survives`, `C102_appeared`, `C102_vanished_partial`, `C102_written`, `C102_moved_partial`, `C102_replaced_partial`, `C102_replaced_violated`, `C102_moved_violated` | A notification is handled before the next change (C74, C76 for the other case); folders are watched. Violated: a file replaced by renaming another one onto it is still told with its old size and downloads are cut off there; a file that gets another name while moved to another folder is lost for the host; a folder that disappears with contents is announced without them (C74). |
| C103 | A storage among others behaves as if it were alone | partial | Storages.lean | `C103_alone_partial`, `C103_others`, `C103_consistent`, `C103_download`, `C103_upload_download`, `C103_start`, `C103_delete_all_violated`, `C103_list_all_violated` | Proved by a simulation between the responder with several storages and the responder with one. Requests that name several storages are excluded: copying between storages is C105 (and C73), moving between storages is C72; violated for deleting in all storages and for listing a folder in all storages. Also excluded: data sent although its announcement by SendObjectPropList was refused (it goes to handle 0, which every storage has). |
| C104 | Property requests do not endanger files | partial | Mixed.lean | `C104_plain_partial`, `C104_asking`, `C104_survives`, `C104_upload_download` | C104_plain_partial: histories with requests before the storage is ready, or data after a refused SendObjectPropList announcement, are not covered by the equality; C104_survives and C104_upload_download cover the latter. |
| C105 | CopyObject to another storage | partial | Across.lean, Full.lean | `C105_copied`, `C105_downloaded`, `C105_dated`, `C105_listed`, `C105_others`, `C105_full`, `C105_no_room`, `C105_no_folder`, `C105_taken`, `C105_overwritten_violated` | Files below 4 GB (copyData counts with 32 bits). C105_full: the file system grants deletions, no file is left open on the destination. Violated: a file copied onto a file of its name overwrites it. |
| C106 | MoveObject to another storage | partial | MoveAcross.lean | `C106_otherwise_same`, `C106_moved`, `C106_downloaded`, `C106_nothing_lost`, `C106_no_folder`, `C106_full_violated`, `C106_half_moved_violated`, `C106_vanished_violated` | Files below 4 GB (copyData counts with 32 bits); the host does not cancel during the move. Violated: when the last piece of a file cannot be written (destination full) the move is answered OK and the original deleted, its bytes lost; after a move that failed half-way two storages have the same handle, and deleting the half-moved folder deletes the original; an empty folder moved onto a folder of its name vanishes. |
| C107 | Setting properties, end to end | partial | ServerSet.lean | `C107_set_list`, `C107_set_value`, `C107_rest`, `C107_told`, `C107_empty_name_violated` | Not a name for the storage root (the code dereferences a null pointer, C63_root_violated); values of the standard's types (C64_type_violated). Violated: a name the system does not carry out (for example an empty one) is answered OK and told as the file name, while the file keeps its name. |
| C108 | Lists of properties, end to end | partial | ServerPropList.lean | `C108_one_partial`, `C108_all_partial`, `C108_refused`, `C108_depth_violated` | Not after operations that spoil the properties asked for (C100 violations); at most 2^20 objects (2^16 for all properties); not for objects of undefined format in one folder (C22). Violated: a request for everything below a folder (depth 0xFFFFFFFF) lists only the objects directly in it. |
| C109 | Object references, end to end | proved | DeviceRefs.lean | `C109_references`, `C109_unset`, `C109_set_refused`, `C109_query_refused` | The references are those of the running device (what is stored and read back at a restart is C33). |
| C110 | Device properties, end to end | partial | DeviceProps.lean | `C110_text`, `C110_unset`, `C110_described`, `C110_battery`, `C110_default`, `C110_refused`, `C110_read_only_violated` | Proved as stated. Violated: setting one of the three properties described as read-only is answered OK without effect (C110_read_only_violated). |
| C111 | Information about device and storage, end to end | partial | DeviceInfo.lean | `C111_device_info`, `C111_storage_ids`, `C111_storage_info_partial`, `C111_no_session` | Numbers of a file system whose fragment and block sizes differ are excluded: they are wrong (C69_fragment_size_violated). |
| C112 | Descriptions of object properties, end to end | proved | DeviceInfo.lean | `C112_object_properties` | In a session with the storages read. Defaults outside their own form: C62. |
| C113 | Persistent identifiers across restarts, end to end | partial | DeviceStart.lean, Restarted.lean | `C113_distinct_partial`, `C113_identifier_partial`, `C113_again_partial` | Proved for devices with one storage, paths in plain ASCII, and histories without MoveObject, SetObjectPropList and renaming of folders: moving gives up the identifier (C14_move_violated), and ids above 2^127 are compared as on machines whose char is unsigned (C14_signed_char_violated). SendObjectPropList is left out before the identifiers are told: it may set what is told for the object sent. Ends by a crash (files not written) are not covered. |
| C114 | Object references across restarts, end to end | partial | DeviceFound.lean | `C114_found`, `C114_references_partial` | Proved for devices with one storage, ASCII paths, histories as in C113. References of folders and of playlists, and references to folders, are lost over a restart (C57_folder_violated, C57_playlist_violated); several storages overwrite each other's file (C57_shared_file_violated). |
| C115 | Files on the whole device | partial | Whole.lean | `C115_stored_partial`, `C115_survives`, `C115_upload_download` | C115_upload_download and C115_survives are complete for a device with one storage. C115_stored_partial (the device answers as its storage alone) excludes the operations listed in ownOps, as these involve the cache, references and device state. GetThumb is not in the device model. |
| C116 | Files across restarts, end to end | proved | WholeStart.lean | `C116_found`, `C116_upload_download` | One storage. What the file system keeps between the end and the start is a hypothesis (HoldsStill). |
| C117 | A restart changes nothing but the handles | proved | Restarted.lean | `C117_same`, `C117_listed` | One storage; up to 2^26 handles for the listing. That the directory still holds what it held is a hypothesis (SameThere). Identifiers and references: C113, C114. |
| C118 | Operations on objects, on the whole device | proved | WholeOps.lean | `C118_answers`, `C118_announces`, `C118_deleted`, `C118_moved`, `C118_copied`, `C118_parts`, `C118_listed`, `C118_made`, `C118_edited`, `C118_unknown` | One storage; the conditions of C85, C89, C90, C91, C92, C99, C101. Requests in ownOps (properties, references, device information) have their own properties: C100, C107-C112. |
<!-- END TABLE -->

## Violations of the stated properties by the code, proved about the model (generated)

<!-- BEGIN VIOLATIONS -->
* `C03_bom_violated` — C03 is not exact for strings that start with U+FEFF: the mark is lost.
* `C07_overrun_beyond_2GiB_violated` — C07 is violated beyond 2 GiB: with a capacity of 2 GiB, writing an array that needs a little more makes the new capacity wrap around and the copy overrun the (shrunk) buffer.
* `C07_seek_back_violated` — C07 violated in its general form: moving back by more than was written wraps around, and the write position lands about 4 GiB behind the allocation. (No caller in the responder moves back.)
* `C08_incomplete_reads_outside_violated` — C08 is violated by every truncated dataset: decoding reads outside the container (integers, strings, 8- and 128-bit arrays).
* `C09_first_packet_overrun_violated` — C09 is violated for a first packet longer than its length field: the copy overruns the buffer.
* `C10_too_many_params_violated` — C10 is violated by every command with more than five parameters: they are stored outside the five slots.
* `C12_order_signed_violated` — C12 is violated where `char` is signed (x86): 128 compares below 1.
* `C13_wrap_violated` — C13 is violated after 2^32 - 1 requests: handle 1 is given out a second time, and the next request returns the reserved value 0.
* `C14_signed_char_violated` — Signed `char` (x86): after 128 objects, a restart gives an id that is already in the id file.
* `C14_move_violated` — C14 is violated after a move: the moved object keeps persistent id 4, and a new file created at the old path is given the same id, because the path-to-id table still has the old path.
* `C14_rename_folder_violated` — C14 is violated after renaming a folder: the files in it keep their ids, while a new file at an old path inside a re-created folder of the old name gets the same id.
* `C14_recreate_violated` — C56, C14: an object created at the path of a deleted one gets the deleted object's id.
* `C17_pending_announcement_violated` — C17 is violated while an announcement is still queued: the old value is returned.
* `C17_set_not_applied_violated` — C17 is violated if the storage answers OK to a set it did not carry out (failed rename, property other than the file name): the factory caches the requested value.
* `C17_cross_storage_move_violated` — C17 is violated by a move to another storage: the cached storage id stays.
* `C18_slash_in_name_violated` — C18 is violated by a host that puts a separator in the name of a new object: an object named "d/w" is created in the root, listed as a child of "d" while its parent property says root.
* `C18_move_rename_violated` — C18 is violated by a device-side `mv /s/y /s/d/v` while "/s/d" contains another object named "y": the moved object is recorded at "/s/d/y", where another object already is.
* `C19_rmdir_refused_violated` — C19 is violated when the file system refuses to remove the emptied folder: the answer is OK but the folder is still there (its contents were deleted by the first call, the second one fails).
* `C19_vanished_folder_violated` — C19 is violated for folders removed on the device while the storage still knows contents (a folder moved out of the storage): the storage tries to remove the already vanished folder, which fails, and keeps showing it.
* `C19_all_answer_violated` — C19 is violated by "delete all": everything but the root is deleted, yet the answer is PartialDeletion, because the root counts as a failure.
* `C19_format_answer_violated` — C19 is violated by "delete all of a format": all matching objects are deleted, yet the answer is PartialDeletion because the first object (not matching) is counted as failed.
* `C19_format_use_after_free_violated` — C19 is violated by "delete all of a format" in memory safety: the loop reads the format of an object destroyed with its folder. The order is the hash order, here the folder first.
* `C20_other_object_violated` — C20 is violated by a device-side `mv /s/y /s/d/v` while "/s/d" contains another object named "y": handle 3 (the moved file) then reads and writes the file of handle 4.
* `C21_rename_answer_violated` — C21 is violated in the answer: a rename the file system refuses is answered OK although nothing changed.
* `C22_undefined_format_violated` — C22 is violated for the format Undefined (0x3000): object 2 has it and is in folder 1, but asking for this format under folder 1 lists nothing, while asking for it in the whole storage lists object 2.
* `C22_folder_all_storages_violated` — C22 is violated with more than one storage: asking for the contents of a folder in all storages is refused because the other storage does not know the folder; and GetNumObjects may answer a non-zero count with that error.
* `C22_format_truncated_violated` — C22: only the low 16 bits of the format count, so an unsupported format code is taken for a supported one.
* `C24_create_outside_violated` — C24 is violated by a host creating an object named "../../e" in folder "/s/d": the file is created at "/s/d/../../e", that is, outside the storage, and shown as a child of the root.
* `C24_empty_name_violated` — C24 is violated by the name check itself for the empty name: it is accepted (the file system then has to refuse).
* `C28_flush_violated` — C28 is violated when the final flush fails (disk full): every call reports success, but the file does not contain the data.
* `C28_after_failed_open_violated` — C28: after a first segment that could not be stored (reported), the following segments report success although nothing is written.
* `C30_last_write_violated` — C30 is violated when writing the last chunk fails: success is reported, the copy is incomplete.
* `C30_large_violated` — C30 is violated from 4 GiB on: only the size modulo 2^32 is copied (here one byte), with success reported.
* `C31_large_violated` — C31 is violated for objects of 4 GiB - 12 bytes and more: only the first 0xFFFFFFF3 bytes are sent, followed by OK.
* `C31_unsent_violated` — C31 is violated when the first packet cannot be sent (the device is suspended): nothing is sent, and yet the response is OK.
* `C33_truncate_violated` — C33 is violated by the file-system storage: an upload of four announced bytes that ends after two is reported IncompleteTransfer, but the file is left with two zero bytes: truncation (fsstorageplugin.cpp:2008) works on the path, the open upload file keeps its position, and closing the upload (mtpresponder.cpp:2340, fsstorageplugin.cpp:2052-2062) extends the file to that position again (with zeros, or with the bytes if they were still in the buffer of the open file, which the model does not distinguish).
* `C34_mixup_violated` — C34 is violated when a SendObjectPropList follows a SendObjectInfo that got no data: object 2 is announced last, but the data goes to object 1 (mtpresponder.cpp:2268-2272 asks the SendObjectInfo sequence first, 2079-2133 does not clear it), its completeness is judged by object 2's size, and object 2 stays empty.
* `C34_refused_violated` — C34 is violated after a refused SendObjectPropList: it still counts as an announcement, of the object with handle 0, so SendObject is not answered NoValidObjectInfo (mtpresponder.cpp:2404-2517 keeps the list whatever the storage says).
* `C35_suspended_violated` — C35 is violated while the storages are not ready: a suspended data phase and a resume let an SendObjectInfo arriving in between create its object without a session.
* `C36_thumb_violated` — C36 is violated by GetThumb without a session (or thumbnail): no response, and the next command is answered by a reset instead of a response.
* `C36_unsupported_data_violated` — C36 is violated by an unsupported operation with a data phase: the data container is taken for another command and answered too.
* `C36_broken_download_violated` — C36 is violated when a download breaks off after its first packet: no response follows.
* `C36_copy_reset_violated` — C36 is violated by a device reset while an object is copied: the request is forgotten, then dereferenced.
* `C37_tid_violated` — C37 is violated for every larger id: the response (here to OpenSession) carries only its low 16 bits.
* `C38_both_violated` — C38 is violated when both kinds of announcement are pending (mtpresponder.cpp:2798-2846 treats only one): the object announced by SendObjectInfo survives the cancel, half written, and its announcement too: the next SendObject is accepted and writes to it.
* `C39_suspend_violated` — C39 fails if the bus is suspended meanwhile: readiness that comes during the suspension goes unnoticed, and the command is never processed; not even the next command of the host is.
* `C39_cancel_violated` — C39 fails worse if the host also cancels during the suspension: then the readiness crashes the responder.
* `C40_second_begin_violated` — C40 is violated by a second BeginEditObject (mtpresponder.cpp:1654-1688 overwrites the first): object 7 can no longer be ended (EndEditObject is refused) and its events stay off although it is not being edited.
* `C40_session_violated` — C40 is violated across sessions: an edit session survives the session it was opened in (mtpresponder.cpp:896-919 does not end it): in the next session the object can be truncated without BeginEditObject.
* `C41_suspend_violated` — C41 fails during a suspension: events are dropped, they are not sent on resume.
* `C41_removed_violated` — C41 fails for removals: the storage announces the removal when it has already forgotten the object (fsstorageplugin.cpp:1317-1345), and for an unknown object the filter lets everything through (mtpresponder.cpp:3036-3048): the host hears of the removal of every object, whether it enabled its events or not.
* `C41_edit_violated` — C41 fails for an object being edited whose info the host asks for: that turns its events on again (fsstorageplugin.cpp:1673), so the host's own edits are announced to it.
* `C41_reset_violated` — C41 fails after a device reset (or a cable disconnect): the flags of the previous session stay on (mtpresponder.cpp:2711-2722 tells the storages nothing), so the next session's host hears of objects it never asked for.
* `C42_cancel_violated` — C42 is violated after a cancel: no transaction is open, but the host side still sees the command as pending.
* `C43_copy_violated` — C43 fails after such a copy: the transaction is over, but the responder goes on waiting for a response to be sent (mtpresponder.cpp:2753-2768 bypasses sendContainer), so the host's next command is answered by a bus reset.
* `C43_twice_violated` — C43 fails if the bus is suspended twice: the second suspend forgets the state to return to, and the responder stays suspended after the resume (mtpresponder.cpp:2746-2751).
* `C44_offset_violated` — C44 is violated for offsets other than the device's own: the correction has the wrong sign, the instant read is wrong by twice the difference of the offsets, for every text.
* `C44_offset_example_violated` — Instance: noon in Greenwich, read by a device two hours east of it, becomes eight in the morning.
* `C44_ambiguous_violated` — C44 is violated for local times that occur twice (end of summer time): whichever of the two instants `mktime` chooses, the other one does not survive.
* `C44_seconds_violated` — C44 is violated for offsets that are not whole minutes (local mean times before standard time).
* `C44_no_such_day_violated` — C44 is violated for days that do not exist: they are read as another day instead of being rejected.
* `C45_interleaved_violated` — C45 is violated when another notification comes between the two halves of a move: a deletion and a creation.
* `C45_last_moved_from_violated` — C45 is violated for the last moved-from: nothing is done until another notification arrives (the null notification meant for this is never sent), so an object moved out of the storage stays listed.
* `C45_move_rename_violated` — C45 is violated for a move to another directory under another name: `mv /s/y /s/d/v` leaves the object at "/s/d/y".
* `C47_capacity_change_violated` — C47 is violated when the capacity changes: 50 % was announced (50 of 100); with 50 of 200 free the percentage is 25, yet no event is sent, because the old value is rated against the new capacity.
* `C47_overflow_violated` — C47 is violated beyond 2^64/100 bytes: the multiplication wraps, and a completely free store of that size counts as empty.
* `C49_cut_in_length_violated` — C49 is violated when a read ends inside a length field: the splitter reads the length beyond the received bytes.
* `C49_zero_length_violated` — C49 is violated by a zero length field: the loop makes no progress, for ever.
* `C50_zlp_failure_violated` — C50 is violated when the zero-length packet fails: the transfer is not terminated, yet success is reported.
* `C53_configured_violated` — C53 is violated by a configuration that names an operation the device refuses: it is advertised all the same.
* `C55_hash_violated` — C55 is violated for names with '#': the thumbnail of "/s/a#1" is recorded for "/s/a": a request for that other image returns the wrong thumbnail, and the image itself is queued again on each request.
* `C56_non_ascii_violated` — C56 is violated for other characters: the length is counted in UTF-16 units, so the end of the UTF-8 text is lost, and with it the id: "/é" comes back as "/" followed by an undecodable byte.
* `C56_cut_violated` — C56 is violated for a cut inside an entry: with the file ending inside the second id, that path gets an id that was never given out (here the new low byte in front of the first id's other bytes).
* `C57_folder_violated` — C57 is violated for folders: ids of folders are never entered in the table used for reading references back, so neither references of a folder nor references to a folder survive.
* `C57_playlist_violated` — C57 is violated for playlists, for which references matter most: their references are not written.
* `C57_shared_file_violated` — C57 is violated with two storages: they use the same file, and the one ending last overwrites the references of the other, in either order.
* `C58_slash_violated` — C58 is violated if paths are read as places: a directory written with and without a final slash is exported twice.
* `C59_deleted_object_violated` — C59 is violated by property reads of a deleted object whose properties are still cached: the request succeeds although no storage has the object (here a descendant removed together with its folder, for which no event is sent).
* `C59_root_ambiguous_violated` — C59: the root handle 0 exists in every storage, so a request about the root of the second storage is executed by the first.
* `C60_mixed_violated` — C60 is violated for objects of different kinds: asked for the width of everything in a folder with an image and a document, the device sends nothing, although the image has a width.
* `C60_all_objects_violated` — C60 is violated for the standard's way to ask for all objects (handle 0xFFFFFFFF, depth 0): no object has that handle, and the request is refused, on every device and for every property.
* `C61_seventh_violated` — C61 is violated: of seven configuration files with the same description, for seven different directories, only six are exported.
* `C61_percent_violated` — C61 is violated for labels with a percent sign: the number replaces part of the label.
* `C62_sample_rate_violated` — C62 is violated on every device with a sound format: the default sample rate is 0, which is not one of the rates allowed.
* `C62_width_violated` — C62 is violated on every device whose images have a least width: the default width is 0.
* `C63_lost_violated` — C63 is violated in time: a display name, described as settable, is set with the answer OK and told back; as soon as the host reads the same property of a neighbour, the device tells an empty name instead.
* `C63_not_renamed_violated` — C63 is violated for a name the file system refuses: the answer is OK and the host is told the new name, while the object keeps its old one.
* `C63_root_violated` — C63 is violated for storage roots: on every device, renaming the object with handle 0 to any well formed name dereferences a null pointer.
* `C64_type_violated` — C64 is violated for values of a type that is not the property's: a number is taken as a file name, and the answer is OK.
* `C65_form_violated` — C65 is violated for the form of refusals: a list without a file name is refused without saying which property is missing (the standard wants four parameters), and a read-only property, such as the size, is taken and afterwards told to the host.
* `C66_read_only_violated` — C66 is violated for the properties described as read-only: setting the battery level, the icon or the device type is not refused but answered OK, and nothing changes, whatever data is sent.
* `C66_advertised_violated` — C66 is violated for the properties the device lists in its device information: with the configuration file it is installed with, it lists the copyright information, and then refuses it.
* `C66_battery_range_violated` — C66 is violated for the battery level's range: the level is described as a multiple of ten up to 100, but takes any value up to 255.
* `C67_blank_violated` — C67 is violated for blank names: the host sets the empty name (or spaces), is answered OK and reads it back, and after a restart the device has the default name again.
* `C68_bad_number_violated` — C68 is violated by an operation code in the configuration that is no number: the device advertises an operation 0 that neither the configuration names nor the device knows.
* `C69_fragment_size_violated` — C69 is violated where the fragment size differs from the block size (a file system of 1000 fragments of 1024 bytes whose preferred block size is 4096): the device tells the host four times the capacity and the free space there is.
* `C70_large_object_violated` — C70 is violated for an object of 4 GiB or more: the host reads the size modulo 2^32 (0.7 GB for 5 GB) instead of the 0xFFFFFFFF with which the standard says "ask for the ObjectSize property".
* `C71_into_itself_violated` — C71 is violated for a folder copied into itself: the copy contains itself, and the recursion never ends (no bound is enough; on a device it ends when the disk is full or a path is too long).
* `C71_overwrites_violated` — C71 is violated for a file copied to where a file of that name exists: the copy is answered OK with the handle of the existing file, whose contents are replaced.
* `C71_empty_not_copied_violated` — C71 is violated for an empty file copied to where a file of that name exists: the answer is OK, but the contents of the existing file stay, so that the "copy" is not a copy.
* `C71_cancel_deletes_original_violated` — C71 is violated when a file is copied into its own folder and the host cancels: the original is deleted.
* `C72_handle_lost_violated` — C72 is violated for an empty folder moved to where the other storage has a folder of that name: the answer is OK, but the moved handle is gone from both storages.
* `C72_half_moved_violated` — C72 is violated when copying a file fails half way: the move is refused, and the handles copied so far are now in both storages.
* `C73_unwatched_violated` — C73 is violated when a copy fails half way: the destination folder is no longer watched, so that later changes in it are not noticed.
* `C74_violated` — C74 is violated when a folder with known contents disappears (moved out of the storage, or replaced): the host is told that the contents are gone, but not that the folder is.
* `C75_existing_violated` — C75 is violated when the name is taken by an object of another kind: a host that announces a folder "y" gets OK and the handle of the existing file "y".
* `C76_saved_by_renaming_violated` — C76 is violated when a program saves a file the careful way, writing a new file and renaming it over the old one: the new name is known, so nothing is looked at again, and the object keeps the old size (and date) for good.
* `C76_renamed_meanwhile_violated` — C76 is violated when the host renames an object before the notification of a change of its file is handled.
* `C76_truncated_date_violated` — C76 is violated by TruncateObject, for every storage: the file's time becomes the present, the date said stays.
* `C76_changed_by_name_violated` — C76 is violated by a program that truncates a file or sets its time by name: no notification is asked for that.
* `C77_renamed_by_host_violated` — C77 is violated, for every storage, when the host renames or moves an object: its format stays as it was, whatever the new name stands for.
* `C77_text_called_jpg_violated` — Instance: a text file that becomes a picture. No later notification mends it.
* `C78_forgotten_violated` — C78 is violated, for every storage: as soon as the notification that the file was closed is handled (and no contents are being sent), the format is the one the name stands for, whatever the host announced.
* `C78_song_violated` — Instance: the host sends a song without an extension as MP3; after the transfer the device says the format is undefined.
* `C79_unreadable_violated` — C79 is violated with a configuration that cannot be read: files are said to be OGG, which is not advertised.
* `C80_upper_case_violated` — C80 is violated for names in upper case, as cameras write them: the format is that of a picture, but the storage says there is no thumbnail.
* `C81_deleted_meanwhile_violated` — C81 is violated when a program renames a file and recreates it, and the host deletes the object before it is told: the renamed file is never offered again.
* `C81_renamed_meanwhile_violated` — C81 is violated when the host renames an object to a name that a program has just freed: the notification of that makes the storage forget the object, although its file is there.
* `C81_uploaded_meanwhile_violated` — C81 is violated the same way by an upload: the object the host has just created vanishes and its file comes back as another object.
* `C82_overwrite_violated` — C82 is violated for an object that exists already. Announcing a larger file under its name is answered OK with its handle, and so is the upload, but what the device knows about the object stays: a GetObject handled before the storage hears from the file system that the file changed (fsstorageplugin.cpp:3046-3080) is answered OK with the beginning of the file only.
* `C83_capture_date_violated` — C83 is violated for the date of creation: the file system has none, and the one announced is forgotten; told is the date of modification.
* `C88_cancelled_announcement_violated` — Cancelling the announcement of an object deletes an object announced earlier (mtpresponder.cpp:2792-2816: the sequence begun by the previous SendObjectInfo is still there if no data followed, as for folders). The host uploads file 1, creates folder 2, moves the file into the folder, begins to announce another object and cancels: folder and file are gone, although the host was told OK four times and never asked to delete anything.
* `C94_keeps_sending_violated` — C94 is violated: a cancelled download goes on: all the data is sent, as long as the writes succeed.
* `C94_crash_violated` — C94 is violated by answers whose response carries a parameter (GetPartialObject): the request is forgotten when the host gives up, then dereferenced.
* `C94_stuck_violated` — C94 is violated by a write that fails in the middle of the data phase while nobody gives up: no response, and the next command is not handled.
* `C94_partial_object_violated` — C94 is violated by GetPartialObject of any file, when the host gives up (or is unplugged) while the first packet is written.
* `C95_large_violated` — C95 is violated for objects of that size that were announced with SendObjectInfo, which has no room for the size: after 4 GB - 1 bytes the transporter takes the container to be over; the rest of the file is read as new containers.
* `C95_data_obeyed_violated` — C95 is violated when an upload is answered before all its data has come, as when the storage is full: the next piece of the data makes the responder reset the transporter, and what follows is taken for new containers: the contents of the file are obeyed.
* `C95_cancel_violated` — C95 is violated after a cancel in the middle of an upload's data (C38): the transporter goes on expecting the rest of the cancelled container, takes the next command for it, and the command is lost: no response, the transporter is reset. Whatever the storage and the command.
* `C95_trojan_violated` — C95 is violated, as above: the upload of a file fails for want of space, and a DeleteObject command inside the file is carried out (and answered): the first file is gone.
* `C96_unplugged_violated` — C96 is violated when the cable is pulled (the interface switched off) during a transaction: the request is dropped, but the next host is told 'busy'.
* `C96_unanswered_violated` — C96 is violated by GetThumb outside a session, which is never answered (C36): the device stays busy, and throws away the next command, still saying 'busy'.
* `C96_resume_violated` — C96 is violated by suspending and resuming in the middle of a transaction: the host is told OK, although the device waits for the transaction's data and would take a command for that.
* `C96_cancel_any_violated` — C96 is violated by cancel requests: the six bytes that name the transaction to cancel are not read. A late cancel of an earlier transaction cancels the one that is pending.
* `C97_mixup_violated` — C97 is violated when a SendObjectInfo got no data before (compare `C34_mixup_violated`): the file "c" announced last, with a list, stays empty though its upload is answered OK, and the older announcement's file "ab" gets the data.
* `C98_unplugged_violated` — C98 is violated when the host is unplugged in the middle of an upload: the file stays, with the announced size and zeros for the bytes that never came, and in the next session it is a file like any other.
* `C98_folder_lost_violated` — C98 is violated when an announcement is cancelled after a folder was made: the device takes the folder for the upload to be undone. Here the host uploads "ab", makes the folder "d", moves "ab" into it, begins to announce another object and cancels that: the folder and the file in it are deleted.
* `C99_file_there_violated` — C99 is violated when a file has that name: the host is told OK with the handle of the file, as if it were the folder; nothing can be uploaded into it, and nothing is listed in it.
* `C100_edit_violated` — C100 is violated while a file is edited: asked for its size before and after TruncateObject, the device says 3 bytes both times; the file has 1. Only EndEditObject makes the device look again.
* `C100_failed_violated` — C100 is violated when an upload fails: the size announced (3), if it was asked for before the data came, is told from then on; nothing is in the file, and GetObject sends nothing.
* `C100_listed_violated` — C100 is violated for an upload announced with SendObjectPropList: a value sent for a property that cannot be set (here the parent, 99) is told from then on, although there is no such object and the file is listed in the root.
* `C101_overwritten_violated` — C101. A file that is copied into a folder which has a file of that name is written over it: CopyObject is answered OK with the handle of the file that was there, whose bytes are lost (fsstorageplugin.cpp:1488-1505 looks for the name only if a folder is copied).
* `C101_cancelled_violated` — C101. A host that cancels a CopyObject loses an object it did not name: the file that was in the folder under the name of the copied one (storageplugin.cpp:65-70 deletes what it was writing to).
* `C102_replaced_violated` — C102, violated: a program on the device replaces file "f" (as programs do that save a document under another name and rename it). The host is told nothing about "f" and is still told its old size, 4 bytes; it downloads the first 4 of its 6 bytes, and the device says OK.
* `C102_moved_violated` — C102, violated: a program on the device moves "d/f" to "e/g", giving it another name on the way. The storage keeps the old name: the host is told that something about the object changed, its name is still "f", and it can no longer be downloaded, though nothing was deleted.
* `C103_delete_all_violated` — C103 does not hold of requests to all storages: deleting all objects of a format is answered with the answer of the storage that was asked last. If that one refuses, the answer is GeneralError, as if nothing had been deleted, although another storage deleted its file.
* `C103_list_all_violated` — C103 does not hold either of a folder asked for in all storages: the objects in the folder (handle 1) are listed if the storage it is on is named; but if all storages are asked for them, another storage, which does not know the folder, spoils the answer.
* `C105_overwritten_violated` — C105. A file that is copied to a folder of another storage which has a file of that name is written over it: CopyObject is answered OK with the handle of the file that was there, whose bytes are lost.
* `C106_full_violated` — C106 is violated when the destination runs out of space, or cannot be written for another reason: the free space is not looked at before a move, and whether the last piece of a file was written is not looked at either. MoveObject is answered OK, the original is deleted, and the file on the destination is empty: its bytes are lost.
* `C106_half_moved_violated` — C106 is violated when a move fails half-way: what came to the destination stays there, so that two storages have an object of the same handle, and the host, seeing the half-moved folder on the destination and deleting it, deletes the original with everything in it.
* `C106_vanished_violated` — C106 is violated by an empty folder that is moved to where there is a folder of that name: MoveObject is answered OK, but no storage has an object of that handle any more.
* `C107_empty_name_violated` — C107 is violated for names the system does not carry out: an empty one is answered OK and told as the file name (GetObjPropValue) from then on; the file is still called "ab", and GetObjectInfo says so.
* `C108_depth_violated` — C108 is violated for whole subtrees: a request about everything below a folder (depth 0xFFFFFFFF) is answered with OK and a list of the objects directly in it only.
* `C110_read_only_violated` — C110 is violated for the properties described as read-only (C66_read_only_violated): setting the battery level, the icon or the device type is answered OK, and nothing changes.
<!-- END VIOLATIONS -->

## Trusted base

* Lean 4.33.0's kernel. No axioms of our own, no compiled evaluation (`native_decide`, `bv_decide`). `decide +kernel` lets the
  kernel evaluate a decision procedure; it is used for concrete cases and finite tables only.
* The reading of the C++ source by the author of the model (the comments cite the lines), and the list "not modelled".
* The specifications in `Spec/` as renderings of the English properties and of the MTP/PTP standard.
* Axioms each property theorem depends on (generated from `#print axioms`):

<!-- BEGIN AXIOMS -->
* no axioms (11): `C09_first_packet_overrun_violated`, `C12_order_signed_violated`, `C22_not_a_folder`, `C44_seconds_violated`, `C45_interleaved_violated`, `C45_last_moved_from_violated`, `C47_capacity_change_violated`, `C47_overflow_violated`, `C56_non_ascii_violated`, `C56_cut_violated`, `C59_root_ambiguous_violated`
* propext (33): `C14_signed_char_violated`, `C16_each_code_once`, `C18_slash_in_name_violated`, `C19_rmdir_refused_violated`, `C19_vanished_folder_violated`, `C19_all_answer_violated`, `C19_format_answer_violated`, `C19_format_use_after_free_violated`, `C21_move_done`, `C21_rename_answer_violated`, `C22_undefined_format_violated`, `C24_empty_name_violated`, `C28_flush_violated`, `C30_last_write_violated`, `C31_unsent_violated`, `C32_past_end_refused`, `C38_cancel_partial`, `C38_nothing`, `C45_pair_is_a_move_partial`, `C45_unpaired`, `C49_cut_in_length_violated`, `C49_zero_length_violated`, `C57_playlist_violated`, `C57_shared_file_violated`, `C59_unknown_handle_refused`, `C59_owner_executes`, `C59_storage_routed`, `C65_request`, `C70_references_refused`, `C70_object_info_refused`, `C70_large_object_violated`, `C74_violated`, `C96_cancel_any_violated`
* Quot.sound, propext (129): `C01_signed`, `C03_bom_violated`, `C07_overrun_beyond_2GiB_violated`, `C09_reassembly_exact`, `C09_no_overrun_partial`, `C12_equality`, `C15_cache_is_history`, `C15_other_objects_untouched`, `C17_reads_fresh_partial`, `C17_quiescent_reads_fresh_partial`, `C17_pending_announcement_violated`, `C17_set_not_applied_violated`, `C17_cross_storage_move_violated`, `C17_gone_refused`, `C19_answer_partial`, `C19_leaf`, `C20_handle_not_reused`, `C21_rename_refused`, `C21_move_refused`, `C22_storage_partial`, `C22_reply_one_partial`, `C22_reply_all_partial`, `C22_folder_all_storages_violated`, `C22_format_truncated_violated`, `C22_unknown_storage`, `C22_unknown_format`, `C23_root_stays`, `C23_root_refused`, `C24_rename_refused`, `C25_enumeration`, `C25_later`, `C26_set`, `C28_after_failed_open_violated`, `C29_truncate`, `C30_cancel_reported`, `C33_ok_complete`, `C33_complete`, `C33_incomplete_partial`, `C33_truncate_violated`, `C34_info`, `C34_list_partial`, `C34_mixup_violated`, `C34_refused_violated`, `C35_nothing_done`, `C35_session_not_open_partial`, `C35_close`, `C35_suspended_violated`, `C36_thumb_violated`, `C36_unsupported_data_violated`, `C36_copy_reset_violated`, `C37_tid_violated`, `C38_next_command`, `C38_both_violated`, `C39_served_partial`, `C39_quiet`, `C39_in_order_partial`, `C39_suspend_violated`, `C39_cancel_violated`, `C40_edit_only`, `C40_truncate_refused`, `C40_partial_refused`, `C40_begin_end`, `C40_truncate`, `C40_partial_accepted`, `C40_second_begin_violated`, `C40_session_violated`, `C41_silent`, `C41_suspend_violated`, `C41_removed_violated`, `C41_edit_violated`, `C41_reset_violated`, `C42_alternate`, `C42_cancel_violated`, `C43_continue_partial`, `C43_idle`, `C43_resent_partial`, `C43_copy`, `C43_copy_violated`, `C43_twice_violated`, `C44_accepts_only`, `C45_conservation`, `C47_throttled_partial`, `C47_not_stuck_partial`, `C50_success_iff_all`, `C50_zero_packet`, `C50_write_size`, `C50_zlp_failure_violated`, `C51_bounded_fifo`, `C51_drops_oldest`, `C51_nothing_lost`, `C52_start_conditions`, `C52_exclusive`, `C52_gives_up`, `C52_timeouts_count`, `C53_advertised`, `C53_other`, `C56_no_overread`, `C58_distinct_partial`, `C59_handle_routed`, `C59_deleted_object_violated`, `C60_mixed_violated`, `C60_all_objects_violated`, `C61_candidates`, `C61_label_partial`, `C61_kept`, `C63_lost_violated`, `C63_not_renamed_violated`, `C64_type_violated`, `C66_battery_events`, `C70_handles_refused`, `C71_overwrites_violated`, `C71_empty_not_copied_violated`, `C71_cancel_deletes_original_violated`, `C72_handle_lost_violated`, `C72_half_moved_violated`, `C73_unwatched_violated`, `C75_no_parent`, `C75_excluded`, `C75_existing_partial`, `C94_undisturbed`, `C94_stuck_violated`, `C95_cancel_violated`, `C96_busy_while_talking`, `C96_busy_iff_pending`, `C96_unplugged_violated`, `C96_unanswered_violated`, `C96_resume_violated`, `C107_rest`, `C114_found`
* Classical.choice, Quot.sound, propext (362): `C01_integer_roundtrip`, `C02_array_roundtrip`, `C03_string_roundtrip`, `C03_string_exact`, `C04_int128_roundtrip`, `C04_int128_array_roundtrip`, `C05_objectinfo_roundtrip`, `C06_container_is_header_and_payload`, `C06_copied_payload`, `C07_no_overrun_partial`, `C07_seek_stays_inside`, `C07_seek_back_violated`, `C08_complete_is_safe_partial`, `C08_incomplete_reads_outside_violated`, `C10_params_exact`, `C10_too_many_params_violated`, `C11_device_description`, `C11_object_description`, `C12_increment`, `C12_order_partial`, `C13_handles_unique_partial`, `C13_wrap_violated`, `C14_fresh_partial`, `C14_move_violated`, `C14_rename_folder_violated`, `C14_recreate_violated`, `C16_batched_lookup_partitions`, `C18_well_formed_partial`, `C18_one_operation_partial`, `C18_move_rename_violated`, `C19_others_unchanged`, `C19_exactly_subtree`, `C19_all`, `C20_frame_partial`, `C20_handle_stable_partial`, `C20_other_object_violated`, `C21_move`, `C21_rename`, `C21_rename_done`, `C23_history`, `C24_rename`, `C24_create_partial`, `C24_create_outside_violated`, `C26_query`, `C27_read_exact`, `C27_past_end_refused`, `C27_read_succeeds`, `C28_upload_exact_partial`, `C29_partial_write`, `C30_copy_exact_partial`, `C30_large_violated`, `C31_download_exact_partial`, `C31_broken_never_ok`, `C31_download_succeeds`, `C31_large_violated`, `C31_wire_bytes`, `C31_wire_exact`, `C32_partial_exact`, `C32_partial64_exact`, `C32_partial_succeeds`, `C35_open`, `C36_one_response_partial`, `C36_broken_download_violated`, `C37_tid_partial`, `C39_at_once`, `C41_events_partial`, `C44_calendar`, `C44_years`, `C44_roundtrip_partial`, `C44_fixed_zone`, `C44_local`, `C44_offset_partial`, `C44_offset_violated`, `C44_offset_example_violated`, `C44_ambiguous_violated`, `C44_no_such_day_violated`, `C44_utc_rejected`, `C45_move_rename_violated`, `C45_move_effect_partial`, `C46_ready_iff_all`, `C46_never_back`, `C46_announced_once`, `C48_lossless_fifo`, `C48_prefix`, `C48_reader_disjoint`, `C48_piece_is_stored`, `C48_read_accepted`, `C48_no_deadlock`, `C49_framing_partial`, `C53_shipped`, `C53_configured_violated`, `C54_advertised_iff_described`, `C54_limits`, `C55_order`, `C55_request_queued`, `C55_once`, `C55_not_while_busy`, `C55_batches`, `C55_all_sent`, `C55_reply_partial`, `C55_hash_violated`, `C55_unrequested_ignored`, `C55_failed_not_retried`, `C56_roundtrip_partial`, `C56_cut_partial`, `C56_cut_between`, `C56_restart_partial`, `C56_run_partial`, `C57_restart_partial`, `C57_folder_violated`, `C58_slash_violated`, `C60_elements_partial`, `C60_no_elements`, `C61_exported_partial`, `C61_seventh_violated`, `C61_percent_violated`, `C62_common_partial`, `C62_sample_rate_violated`, `C62_width_violated`, `C63_set_then_get_partial`, `C63_refused`, `C63_bad_name`, `C63_file_name_lasts`, `C63_root_violated`, `C64_set_list_partial`, `C65_announcement_partial`, `C65_values_kept`, `C65_form_violated`, `C66_described`, `C66_value`, `C66_unknown_refused`, `C66_set_then_get`, `C66_value_lasts`, `C66_read_only_violated`, `C66_advertised_violated`, `C66_battery_range_violated`, `C67_name_survives_restart`, `C67_history`, `C67_blank_violated`, `C68_device_info`, `C68_operations`, `C68_builtin`, `C68_host_is_told`, `C68_bad_number_violated`, `C69_storage_ids`, `C69_storage_info_partial`, `C69_fragment_size_violated`, `C70_handles_partial`, `C70_references`, `C70_object_info_partial`, `C71_copy_partial`, `C71_completes_partial`, `C71_nothing_lost_partial`, `C71_into_itself_violated`, `C71_folder_collision_refused`, `C72_move_across_partial`, `C73_watched_partial`, `C74_created`, `C74_created_one`, `C74_removed_partial`, `C74_removed_one`, `C74_moved_partial`, `C74_own_silent`, `C74_mirror_step_partial`, `C74_mirror_partial`, `C75_created`, `C75_existing_violated`, `C76_size_once_settled_partial`, `C76_dates_once_settled_partial`, `C76_wrong_only_meanwhile_partial`, `C76_host_is_told`, `C76_saved_by_renaming_violated`, `C76_renamed_meanwhile_violated`, `C76_truncated_date_violated`, `C76_changed_by_name_violated`, `C77_by_extension`, `C77_case_does_not_matter`, `C77_once_settled_partial`, `C77_renamed_by_host_violated`, `C77_text_called_jpg_violated`, `C78_at_first`, `C78_forgotten_violated`, `C78_song_violated`, `C79_shipped`, `C79_any_configuration_partial`, `C79_unreadable_violated`, `C80_lower_case_partial`, `C80_upper_case_violated`, `C81_objects_are_files`, `C81_files_are_objects_partial`, `C81_deleted_meanwhile_violated`, `C81_renamed_meanwhile_violated`, `C81_uploaded_meanwhile_violated`, `C82_upload_download`, `C82_others_kept`, `C82_overwrite_violated`, `C83_info_told_partial`, `C83_date_told`, `C83_capture_date_violated`, `C83_announced`, `C84_listed`, `C85_deleted`, `C85_unknown`, `C85_delete_unknown`, `C86_contents_kept`, `C87_disk_and_objects_agree`, `C88_survives`, `C88_upload_survives`, `C88_cancelled_announcement_violated`, `C89_parts`, `C89_parts_refused`, `C89_upload_parts`, `C90_count`, `C90_count_is_length`, `C91_move`, `C91_move_reasons`, `C91_listed_where_moved`, `C91_rename`, `C91_rename_unknown`, `C91_rename_all_or_nothing`, `C92_begin_end`, `C92_truncate`, `C92_send_partial`, `C92_begin_unknown`, `C92_edit`, `C92_date_kept`, `C93_consistent`, `C93_objects`, `C93_download`, `C93_info`, `C93_listing`, `C93_folder`, `C93_session`, `C94_interrupted_partial`, `C94_storage_untouched`, `C94_completed`, `C94_keeps_sending_violated`, `C94_crash_violated`, `C94_partial_object_violated`, `C95_stream`, `C95_taken`, `C95_upload_download`, `C95_large`, `C95_large_violated`, `C95_data_obeyed_violated`, `C95_trojan_violated`, `C96_answers`, `C96_ok_means_ready`, `C97_upload_download`, `C97_info_told`, `C97_announcement`, `C97_mixup_violated`, `C98_cancelled`, `C98_cancelled_list`, `C98_not_answered_before`, `C98_unplugged_violated`, `C98_folder_lost_violated`, `C99_made_partial`, `C99_listed`, `C99_filled`, `C99_file_there_violated`, `C100_told_partial`, `C100_new`, `C100_edited`, `C100_identifier`, `C100_edit_violated`, `C100_failed_violated`, `C100_listed_violated`, `C101_full`, `C101_no_room`, `C101_copied`, `C101_downloaded`, `C101_dated`, `C101_listed`, `C101_refused`, `C101_overwritten_violated`, `C101_cancelled_violated`, `C102_consistent`, `C102_survives`, `C102_upload_survives`, `C102_appeared`, `C102_vanished_partial`, `C102_written`, `C102_moved_partial`, `C102_replaced_partial`, `C102_replaced_violated`, `C102_moved_violated`, `C103_alone_partial`, `C103_others`, `C103_consistent`, `C103_download`, `C103_upload_download`, `C103_start`, `C103_delete_all_violated`, `C103_list_all_violated`, `C104_plain_partial`, `C104_asking`, `C104_survives`, `C104_upload_download`, `C105_copied`, `C105_downloaded`, `C105_dated`, `C105_listed`, `C105_others`, `C105_full`, `C105_no_room`, `C105_no_folder`, `C105_taken`, `C105_overwritten_violated`, `C106_otherwise_same`, `C106_moved`, `C106_downloaded`, `C106_nothing_lost`, `C106_no_folder`, `C106_full_violated`, `C106_half_moved_violated`, `C106_vanished_violated`, `C107_set_list`, `C107_set_value`, `C107_told`, `C107_empty_name_violated`, `C108_one_partial`, `C108_all_partial`, `C108_refused`, `C108_depth_violated`, `C109_references`, `C109_unset`, `C109_set_refused`, `C109_query_refused`, `C110_text`, `C110_unset`, `C110_described`, `C110_battery`, `C110_default`, `C110_refused`, `C110_read_only_violated`, `C111_device_info`, `C111_storage_ids`, `C111_storage_info_partial`, `C111_no_session`, `C112_object_properties`, `C113_distinct_partial`, `C113_identifier_partial`, `C113_again_partial`, `C114_references_partial`, `C115_stored_partial`, `C115_survives`, `C115_upload_download`, `C116_found`, `C116_upload_download`, `C117_same`, `C117_listed`, `C118_answers`, `C118_announces`, `C118_deleted`, `C118_moved`, `C118_copied`, `C118_parts`, `C118_listed`, `C118_made`, `C118_edited`, `C118_unknown`
<!-- END AXIOMS -->
