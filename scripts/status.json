{
 "C03": [
  "partial",
  "Exact except that a leading U+FEFF/U+FFFE is consumed by Qt's UTF-16 import (C03_bom_violated)."
 ],
 "C06": [
  "proved",
  "For containers below 2 GiB (no dataset of the responder comes near)."
 ],
 "C07": [
  "partial",
  "Proved up to 2 GiB; above, the 32-bit capacity arithmetic wraps and the buffer is overrun (violated); moving the write position back further than was written leaves the buffer (C07_seek_back_violated; no caller does)."
 ],
 "C08": [
  "partial",
  "The code does no bounds check: safe iff the dataset is complete; both directions proved."
 ],
 "C09": [
  "partial",
  "Reassembly exact for every packetization; a first packet longer than the length field overruns (violated)."
 ],
 "C10": [
  "partial",
  "Exact for at most five parameters; more than five are stored out of bounds (violated)."
 ],
 "C12": [
  "partial",
  "Exact on unsigned-char platforms; on signed-char ones < and > are wrong for bytes >= 128 (violated)."
 ],
 "C13": [
  "partial",
  "Holds for the first 2^32-2 handles; the counter wraps to 0 and reuses handles (violated)."
 ],
 "C17": [
  "partial",
  "Not stale under announced changes processed; pending announcements, unapplied sets and cross-storage moves are stale (violated)."
 ],
 "C49": [
  "partial",
  "Exact when no read ends inside a length field; a cut there and a zero length field break it (violated)."
 ],
 "C50": [
  "partial",
  "Everything but: failure of the terminating zero-length packet is reported as success (violated)."
 ],
 "C28": [
  "partial",
  "Exact for successful uploads; a failed flush is ignored and an upload after a failed open is reported OK (violated)."
 ],
 "C30": [
  "partial",
  "Exact below 4 GiB; the failure of the last write is masked and objects of 4 GiB and more break (violated)."
 ],
 "C31": [
  "partial",
  "Exact below 4 GiB-12; larger sizes wrap in the header and an unsent first packet is not noticed (violated)."
 ],
 "C35": [
  "partial",
  "All operations but GetThumb (never answered); commands that arrive while suspended or before storages are ready are covered by violations."
 ],
 "C36": [
  "partial",
  "For hosts that follow the protocol, without GetThumb, and downloads that do not break off; each exception has a violated theorem."
 ],
 "C37": [
  "partial",
  "Only the low 16 bits of the id are echoed by most operations (violated for ids >= 65536)."
 ],
 "C42": [
  "partial",
  "Strict alternation proved for every history; 'pending' stays on after a cancel or a suspend (violated)."
 ],
 "C53": [
  "partial",
  "Proved for the built-in operations and for the shipped configuration (C53_shipped). Violated: a configuration can name an operation the device refuses, which is then advertised (C53_configured_violated)."
 ],
 "C14": [
  "partial",
  "Fresh ids while the 128-bit counter does not wrap; comparison of ids relies on unsigned char (violated)."
 ],
 "C33": [
  "partial",
  "Complete uploads exact, incomplete ones refused and truncated; but closing the file re-extends it (violated)."
 ],
 "C34": [
  "partial",
  "Data goes to the announced object for one announcement; a refused property list stays pending and mixed announcements go to the wrong object (violated)."
 ],
 "C38": [
  "partial",
  "With one announcement pending; with both kinds pending only one is removed (violated)."
 ],
 "C39": [
  "partial",
  "Exact if nothing but the command, its data and the readiness happens; a suspend or cancel in between loses the command or crashes (violated)."
 ],
 "C40": [
  "partial",
  "Exact within one edit session; a second BeginEdit and a session change break it (violated)."
 ],
 "C41": [
  "partial",
  "Filter and addressing exact for every history outside suspension; removals are never filtered, events are lost in suspension, flags are re-enabled by GetObjectInfo and survive a reset (violated)."
 ],
 "C43": [
  "partial",
  "State and container restored; after a resent response the responder hangs in the old state and double suspension sticks (violated)."
 ],
 "C59": [
  "partial",
  "Routing exact for known handles; a deleted or root handle is routed ambiguously (violated)."
 ],
 "C18": [
  "partial",
  "Invariant over all histories, except a host name with '/' and a device move across folders with a rename onto an existing name (both violated)."
 ],
 "C19": [
  "partial",
  "Exact when no system call is refused; OK although rmdir of the emptied folder failed, ghosts of vanished folders, answers of delete-all and a use after free are violated."
 ],
 "C20": [
  "partial",
  "Handles never reused: proved for all histories (below 2^32-1 handles). Stability proved for histories satisfying OpOk (see C18); violated by a device move with rename onto an existing name (C20_other_object_violated)."
 ],
 "C21": [
  "partial",
  "Effect of move and rename exact; a refused physical rename is answered OK (violated)."
 ],
 "C22": [
  "partial",
  "Exact except format 0x3000 below folders, a folder handle with all storages, and format codes above 16 bits (violated)."
 ],
 "C23": [
  "proved",
  "For any tree whatsoever; C23_history adds that the root survives all histories satisfying OpOk."
 ],
 "C24": [
  "partial",
  "Renames exact; names of created objects are not checked and can leave the storage (violated)."
 ],
 "C45": [
  "partial",
  "Conservation proved for all sequences; pairing only when adjacent (C45_interleaved_violated), last moved-from never flushed (violated), move+rename misplaced (violated)."
 ],
 "C46": [
  "proved",
  "Ids given by the factory are distinct; readiness in any order with repetitions."
 ],
 "C47": [
  "partial",
  "Fixed capacity below 2^64/100 bytes; violated when capacity changes or the product overflows."
 ],
 "C55": [
  "partial",
  "Order, once, batches of 128, never while busy, none lost proved for all event sequences; C55_reply_partial assumes the thumbnailer answers for the requested path; hash collisions of two paths lose a request (violated) and a failed thumbnail is never retried (violated)."
 ],
 "C56": [
  "partial",
  "Round trip and truncation proved for tables with ASCII paths; non-ASCII paths are truncated (violated), and a file cut inside an entry can give an entry that was not written (violated)."
 ],
 "C57": [
  "partial",
  "Proved for files of one storage found again at ASCII paths; violated for folders (ids never entered in the read-back table), playlists (not written) and several storages sharing the reference file (C57_*_violated)."
 ],
 "C44": [
  "partial",
  "Calendar arithmetic, parsing and printing proved for all dates; local-time strings round trip away from repeated/skipped hours; offset suffixes are mis-applied (violated), seconds fraction/no-such-day cases documented as violations."
 ],
 "C58": [
  "partial",
  "No two exported storages share a path string, label or id, for all configurations; the same directory written with and without a trailing slash is exported twice (C58_slash_violated)."
 ],
 "C61": [
  "partial",
  "Every directory asked for is exported exactly once when labels have no percent sign and no label is another one followed by a number; otherwise a directory can be dropped (C61_seventh_violated) or its label corrupted (C61_percent_violated)."
 ],
 "C60": [
  "partial",
  "Proved end to end (table lookup, cached property reads, serialisation, count patch, host parser) for objects that all support the property; a mixed folder or the standard's all-objects form is refused (violations)."
 ],
 "C62": [
  "partial",
  "Holds for the common properties on every device; violated for sample rates and for image widths with a minimum."
 ],
 "C63": [
  "partial",
  "Wire-level round trip proved; file names last through any reads. Values of properties without storage (display name, artist...) are forgotten when a neighbour is read (C63_lost_violated), a refused rename is answered OK (C63_not_renamed_violated), renaming a storage root dereferences null (C63_root_violated)."
 ],
 "C64": [
  "partial",
  "Proved for lists whose values have the types of the standard; the type sent by the host is not checked (C64_type_violated)."
 ],
 "C65": [
  "partial",
  "Proved for file names of string type; a missing file name is refused without parameters and read-only properties are taken (C65_form_violated)."
 ],
 "C66": [
  "partial",
  "Reads, sets, persistence in memory and refusals of unknown codes proved for all states and histories; sets of read-only properties are answered OK (C66_read_only_violated), the copyright property is listed but refused (C66_advertised_violated), the battery level leaves its described range (C66_battery_range_violated)."
 ],
 "C67": [
  "partial",
  "Proved for names that are not blank, the XML library being trusted to give back the text written; a blank name reverts to the default (C67_blank_violated)."
 ],
 "C68": [
  "partial",
  "Full dataset, built-in operations and formats proved for every configuration. Violated: a configured operation code that is no number is advertised as operation 0 (C68_bad_number_violated)."
 ],
 "C69": [
  "partial",
  "Proved for file systems whose fragment size is the block size. Violated otherwise: the code multiplies block counts, which POSIX gives in fragments, by the block size (C69_fragment_size_violated)."
 ],
 "C70": [
  "partial",
  "Handles with the exclusions of C22. Violated: GetObjectInfo tells the size of an object of 4 GiB or more modulo 2^32 (C70_large_object_violated)."
 ],
 "C71": [
  "partial",
  "Proved for free destinations that are not inside the copied folder, and for storages where only folders contain objects. Violations proved: a folder copied into itself recurses without end; a file copied onto a same-named file overwrites it (or, when empty, is not copied) and answers OK; cancelling a copy into the own folder deletes the original."
 ],
 "C72": [
  "partial",
  "Proved for OK answers at free destinations. Violations proved: an empty folder moved onto a same-named folder loses its handle although answered OK; a failure half way leaves handles in both storages."
 ],
 "C73": [
  "partial",
  "Proved for OK answers at free destinations. Violation proved: a copy failing half way leaves the destination folder unwatched."
 ],
 "C74": [
  "partial",
  "Full statement violated: a folder with known contents that disappears is removed without an event (C74_violated). Proved: creation, removal of anything without known contents, moves to free places, silence of host operations, and the mirror over histories without such folders."
 ],
 "C75": [
  "partial",
  "Full statement violated: if the name is taken by an object of another kind, the answer is OK with the handle of that object (C75_existing_violated)."
 ],
 "C76": [
  "partial",
  "Proved for all histories without the excluded steps; the event statement for all histories. Violations proved: saving by renaming over a file leaves size and date stale for good; a host rename before the change notification is handled does too; TruncateObject leaves the date stale; changes by name (truncate(2), utimes(2)) are never noticed."
 ],
 "C77": [
  "partial",
  "The function of the name is proved in full. Over histories: proved except for a rename by the host to a name with another extension, which keeps the old format (violation proved)."
 ],
 "C78": [
  "partial",
  "Holds at first (proved); violated as soon as the notification of the closed file is handled: the format is computed from the name."
 ],
 "C79": [
  "partial",
  "Proved for the shipped configuration, and for any configuration except for OGG. Violation proved: with an unreadable configuration OGG is said but not advertised."
 ],
 "C80": [
  "partial",
  "Proved for lower-case extensions; violated for upper-case ones, whose format is recognised but whose thumbnail fields are not."
 ],
 "C81": [
  "partial",
  "First part proved for every history; second part for histories without three races. Violations proved: a host delete before the rename notification loses the renamed file; a host rename onto a just freed name is forgotten; an object uploaded to a just freed name vanishes and comes back under another handle."
 ],
 "C82": [
  "partial",
  "Proved end to end for the responder with one file-system storage behind it, for new objects of less than 4 GB and an operating system that does not fail; false for overwriting an existing object (C82_overwrite_violated)."
 ],
 "C83": [
  "partial",
  "Conditions as in C82; the size is told modulo 2^32 (the dataset has no more). The date of modification is told as announced if utimes succeeds and C44 holds for the date (C83_date_told); the announced date of creation is replaced by it (C83_capture_date_violated)."
 ],
 "C84": [
  "proved",
  "Conditions as in C82; at most 2^26 handles given out."
 ],
 "C85": [
  "proved",
  "For a file system that refuses, C19 and C23."
 ],
 "C86": [
  "proved",
  "For the responder with one file-system storage behind it (operations modelled in Verif.Model.Server)."
 ],
 "C87": [
  "proved",
  "While handles are left, and nobody else changes the disk (for that C74, C81)."
 ],
 "C88": [
  "partial",
  "Proved, with cancellations allowed only when no announced object contains the object: without that it is false, cancelling an announcement deletes a folder announced earlier with all that was moved into it (C88_cancelled_announcement_violated)."
 ],
 "C89": [
  "proved",
  "For files below 2^63 bytes, the operating system not failing."
 ],
 "C90": [
  "partial",
  "Storage given (not 0xFFFFFFFF), and not the undefined format together with a folder (see C22); equality of number and list for any format."
 ],
 "C91": [
  "proved",
  "One storage; the file system refuses the impossible (rename(2)). A rename the file system refuses is answered OK by the code; that is why the statement about renames is about their effect."
 ],
 "C92": [
  "proved",
  "Positions and data below 2^63 bytes; the operating system may fail (then other objects are as before), but does not lose what it took. The date is kept if utimes succeeds and C44 holds for it."
 ],
 "C93": [
  "proved",
  "One storage; downloads below 4 GiB, the operating system not failing; the disk is read at one moment (changes meanwhile: C81). What a symbolic link leads to is treated as a file of its own."
 ],
 "C94": [
  "partial",
  "Violated: the rest of a cancelled download is sent all the same; answers whose response has a parameter (GetPartialObject) dereference the forgotten request; a write that fails while nobody gives up leaves the responder waiting, and the next command is lost. Suspend/resume during writes and storage changes meanwhile are left out."
 ],
 "C95": [
  "partial",
  "Violated: when an upload is answered before its data has come (e.g. storage full) the rest of the file is parsed as containers, so commands in the file are executed; after a cancel in the middle of data the next command is swallowed as the rest of it. Containers of 4 GB and more (marker length) have their own theorem: their end is seen when the object was announced by SendObjectPropList, not when by SendObjectInfo (violated)."
 ],
 "C96": [
  "partial",
  "Violated: unplugging during a transaction leaves the status busy for the next host; an unanswered GetThumb leaves it busy while commands are thrown away; suspending and resuming in the middle of a transaction makes it OK; a cancel request cancels whatever is pending, since the transaction named in it is not read. The theorems about histories leave out suspending."
 ],
 "C97": [
  "partial",
  "Violated: after a SendObjectInfo whose data never came, the data goes to that older object instead (C97_mixup_violated); the theorems assume no such announcement is waiting. Setting the other listed properties is a no-op in this model (see C64, C65 for them)."
 ],
 "C98": [
  "partial",
  "Proved for cancel requests. Violated when the host is unplugged instead (the half-written file stays, C98_unplugged_violated) and when the announcement itself is cancelled after a folder was made (the folder and what is in it are deleted, C98_folder_lost_violated)."
 ],
 "C99": [
  "partial",
  "Proved except for the dates: those announced for a folder are not told. Violated when a file has the name already (the host is told OK with the handle of the file, C99_file_there_violated)."
 ],
 "C100": [
  "partial",
  "Proved for histories without the operations that may spoil the property (uploads announced with a list; for size and dates: uploads, edits and copies; for the name: setting properties). Violated for these: stale size during an edit, the announced size of a failed upload, values sent for read-only properties with SendObjectPropList."
 ],
 "C101": [
  "partial",
  "Files below 4 GB (copyData counts with 32 bits, C72), storage at rest otherwise, one storage. Violated: copying a file onto a file of its name overwrites that, and cancelling such a copy deletes it."
 ],
 "C102": [
  "partial",
  "A notification is handled before the next change (C74, C76 for the other case); folders are watched. Violated: a file replaced by renaming another one onto it is still told with its old size and downloads are cut off there; a file that gets another name while moved to another folder is lost for the host; a folder that disappears with contents is announced without them (C74)."
 ],
 "C103": [
  "partial",
  "Proved by a simulation between the responder with several storages and the responder with one. Requests that name several storages are excluded: copying between storages is C105 (and C73), moving between storages is C72; violated for deleting in all storages and for listing a folder in all storages. Also excluded: data sent although its announcement by SendObjectPropList was refused (it goes to handle 0, which every storage has)."
 ],
 "C104": [
  "partial",
  "C104_plain_partial: histories with requests before the storage is ready, or data after a refused SendObjectPropList announcement, are not covered by the equality; C104_survives and C104_upload_download cover the latter."
 ],
 "C105": [
  "partial",
  "Files below 4 GB (copyData counts with 32 bits). C105_full: the file system grants deletions, no file is left open on the destination. Violated: a file copied onto a file of its name overwrites it."
 ],
 "C106": [
  "partial",
  "Files below 4 GB (copyData counts with 32 bits); the host does not cancel during the move. Violated: when the last piece of a file cannot be written (destination full) the move is answered OK and the original deleted, its bytes lost; after a move that failed half-way two storages have the same handle, and deleting the half-moved folder deletes the original; an empty folder moved onto a folder of its name vanishes."
 ],
 "C107": [
  "partial",
  "Not a name for the storage root (the code dereferences a null pointer, C63_root_violated); values of the standard's types (C64_type_violated). Violated: a name the system does not carry out (for example an empty one) is answered OK and told as the file name, while the file keeps its name."
 ],
 "C108": [
  "partial",
  "Not after operations that spoil the properties asked for (C100 violations); at most 2^20 objects (2^16 for all properties); not for objects of undefined format in one folder (C22). Violated: a request for everything below a folder (depth 0xFFFFFFFF) lists only the objects directly in it."
 ],
 "C109": [
  "proved",
  "The references are those of the running device (what is stored and read back at a restart is C33)."
 ],
 "C110": [
  "partial",
  "Proved as stated. Violated: setting one of the three properties described as read-only is answered OK without effect (C110_read_only_violated)."
 ],
 "C111": [
  "partial",
  "Numbers of a file system whose fragment and block sizes differ are excluded: they are wrong (C69_fragment_size_violated)."
 ],
 "C112": [
  "proved",
  "In a session with the storages read. Defaults outside their own form: C62."
 ],
 "C113": [
  "partial",
  "Proved for devices with one storage, paths in plain ASCII, and histories without MoveObject, SetObjectPropList and renaming of folders: moving gives up the identifier (C14_move_violated), and ids above 2^127 are compared as on machines whose char is unsigned (C14_signed_char_violated). SendObjectPropList is left out before the identifiers are told: it may set what is told for the object sent. Ends by a crash (files not written) are not covered."
 ],
 "C114": [
  "partial",
  "Proved for devices with one storage, ASCII paths, histories as in C113. References of folders and of playlists, and references to folders, are lost over a restart (C57_folder_violated, C57_playlist_violated); several storages overwrite each other's file (C57_shared_file_violated)."
 ],
 "C115": [
  "partial",
  "C115_upload_download and C115_survives are complete for a device with one storage. C115_stored_partial (the device answers as its storage alone) excludes the operations listed in ownOps, as these involve the cache, references and device state. GetThumb is not in the device model."
 ],
 "C116": [
  "proved",
  "One storage. What the file system keeps between the end and the start is a hypothesis (HoldsStill)."
 ],
 "C117": [
  "proved",
  "One storage; up to 2^26 handles for the listing. That the directory still holds what it held is a hypothesis (SameThere). Identifiers and references: C113, C114."
 ],
 "C118": [
  "proved",
  "One storage; the conditions of C85, C89, C90, C91, C92, C99, C101. Requests in ownOps (properties, references, device information) have their own properties: C100, C107-C112."
 ]
}