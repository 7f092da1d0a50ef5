{"id": "C01", "title": "Integers survive the wire, little endian", "statement": "For every integer width (8,16,32,64 bit, signed or unsigned), serializing a value and deserializing it at the same place yields the same value, and the bytes on the wire are the value's little-endian digits.", "quantifier": "all values of each width, at every position in a container, after any earlier content", "why_tests_cant": "2^64 values and unbounded preceding content cannot be enumerated", "anchors": ["mts/protocol/mtptxcontainer.cpp:operator<<", "mts/protocol/mtprxcontainer.cpp:operator>>"]}
{"id": "C02", "title": "Arrays survive the wire", "statement": "An array of 8/16/32/64-bit integers is sent as a 32-bit element count followed by its elements in order, and reading it back yields exactly the same array and consumes exactly its bytes.", "quantifier": "all arrays of fewer than 2^32 elements and any data following", "why_tests_cant": "arrays are unbounded", "anchors": ["mts/protocol/mtptxcontainer.cpp:operator<<(QVector)", "mts/protocol/mtprxcontainer.cpp:operator>>(QVector)", "mts/protocol/mtprxcontainer.cpp:deserialize"]}
{"id": "C03", "title": "Strings survive the wire, within the MTP limit", "statement": "A string with at most 254 UTF-16 units and no NUL is received exactly as sent. A longer one is received as its first 254 units, one with an embedded NUL as what precedes it; the empty string is a single zero byte; no string ever announces more than 255 units.", "quantifier": "all UTF-16 strings of any length and content", "why_tests_cant": "strings are unbounded and boundary lengths interact with embedded NULs", "anchors": ["mts/protocol/mtptxcontainer.cpp:operator<<(QString)", "mts/protocol/mtprxcontainer.cpp:operator>>(QString)"]}
{"id": "C04", "title": "128-bit identifiers and arrays of them survive the wire", "statement": "A 128-bit value (persistent object id) and an array of them are received exactly as sent and occupy exactly 16 bytes per value (plus the 4-byte count).", "quantifier": "all 128-bit values and all arrays of them", "why_tests_cant": "2^128 values, unbounded arrays", "anchors": ["mts/protocol/mtptxcontainer.cpp:operator<<(MtpInt128)", "mts/protocol/mtprxcontainer.cpp:operator>>(MtpInt128)"]}
{"id": "C05", "title": "Object-info dataset survives the wire", "statement": "Sending an object-info dataset and decoding it yields the same fields in every position, with the size reduced to its low 32 bits and each string cut as in C03.", "quantifier": "all object-info records", "why_tests_cant": "product of 15 integer fields and four unbounded strings", "anchors": ["mts/protocol/mtptxcontainer.cpp:operator<<(MTPObjectInfo)", "mts/protocol/mtprxcontainer.cpp:operator>>(MTPObjectInfo)"]}
{"id": "C06", "title": "The length field of a sent container is its real length", "statement": "After any sequence of values has been written, the container handed to the transport starts with a header whose length field equals the number of bytes handed over, with the type, code and transaction id it was created with; the payload is the concatenation of the encodings in order.", "quantifier": "all sequences of writes of any values, all initial size estimates", "why_tests_cant": "sequences and estimates are unbounded; growth paths depend on both", "anchors": ["mts/protocol/mtptxcontainer.cpp:buffer", "mts/protocol/mtptxcontainer.cpp:serialize", "mts/protocol/mtpcontainer.cpp"]}
{"id": "C07", "title": "Writing a container never overruns its buffer", "statement": "No sequence of writes to an outgoing container stores a byte outside the memory allocated for it, whatever the capacity estimate, as long as the container stays below 4 GiB.", "quantifier": "all write sequences and capacity estimates", "why_tests_cant": "memory safety over every growth history", "anchors": ["mts/protocol/mtptxcontainer.cpp:serialize", "mts/protocol/mtptxcontainer.cpp:expandBuffer", "mts/protocol/mtptxcontainer.cpp:operator<<(QVector<MtpInt128>)"]}
{"id": "C08", "title": "Decoding a received container never reads outside it", "statement": "Decoding any sequence of values from any received container reads only bytes that belong to that container.", "quantifier": "all received byte strings and all decode sequences", "why_tests_cant": "adversarial host data is unbounded", "anchors": ["mts/protocol/mtprxcontainer.cpp:deserialize", "mts/protocol/mtprxcontainer.cpp:operator>>(QString)", "mts/protocol/mtprxcontainer.cpp:operator>>(QVector)"]}
{"id": "C09", "title": "Container reassembly does not depend on packet boundaries", "statement": "A container delivered as a first packet and any number of continuation packets is reassembled to exactly the concatenated bytes; bytes beyond the announced length are not stored; nothing is written outside the allocated buffer.", "quantifier": "all containers and all ways of cutting them into packets", "why_tests_cant": "exponentially many segmentations, adversarial lengths", "anchors": ["mts/protocol/mtprxcontainer.cpp:MTPRxContainer", "mts/protocol/mtprxcontainer.cpp:append"]}
{"id": "C10", "title": "Command parameters are decoded exactly", "statement": "A command carrying k<=5 parameters is seen with exactly those k values in order and zeros for the missing ones, and decoding the parameters of any command touches only the five parameter slots.", "quantifier": "all commands, all parameter counts and values", "why_tests_cant": "parameter count comes from the host-controlled length field", "anchors": ["mts/protocol/mtpcontainer.cpp:params"]}
{"id": "C11", "title": "Property descriptions are sent in the standard layout", "statement": "A device- or object-property description can be decoded by a host that follows the MTP layout (code, type, get/set, default, [current | group], form flag, form) to the same values, for every data type and form kind.", "quantifier": "all descriptions of every data type and form", "why_tests_cant": "product of types, forms and unbounded values", "anchors": ["mts/protocol/mtptxcontainer.cpp:operator<<(MtpDevPropDesc)", "mts/protocol/mtptxcontainer.cpp:operator<<(MtpObjPropDesc)", "mts/protocol/mtptxcontainer.cpp:serializeVariantByType", "mts/protocol/mtptxcontainer.cpp:serializeFormField"]}
{"id": "C12", "title": "128-bit identifiers count and compare as numbers", "statement": "Incrementing a 128-bit identifier adds one modulo 2^128; two identifiers are equal iff all 16 bytes are; '<' and '>' agree with the numeric order.", "quantifier": "all 128-bit values, on platforms with signed and with unsigned char", "why_tests_cant": "2^128 values; char signedness is platform dependent", "anchors": ["mts/common/mtptypes.h:MtpInt128"]}
{"id": "C13", "title": "Object handles are unique and never a reserved value", "statement": "The handles given out to objects are pairwise different and never 0 or 0xFFFFFFFF, for the whole life of the process.", "quantifier": "all allocation histories", "why_tests_cant": "wrap-around needs 2^32 allocations", "anchors": ["mts/platform/storage/storagefactory.cpp:getObjectHandle"]}
{"id": "C14", "title": "Persistent ids are never given to two objects, across restarts", "statement": "A persistent object id handed out in any run of the daemon is different from every id that was handed out before in that run and from every id recorded by earlier runs on any storage.", "quantifier": "all histories of allocations, recordings and restarts, any number of storages", "why_tests_cant": "histories across restarts are unbounded", "anchors": ["mts/platform/storage/storagefactory.cpp:getPuoid", "mts/platform/storage/storagefactory.cpp:enumerateStorages", "mts/platform/storage/fsstorageplugin/fsstorageplugin.cpp:populatePuoids", "mts/platform/storage/fsstorageplugin/fsstorageplugin.cpp:storePuoids"]}
{"id": "C15", "title": "The property cache behaves as a map with invalidation", "statement": "A cached lookup returns exactly the value most recently stored for that object and property unless the property or object was invalidated since; operations on one object or property never affect another.", "quantifier": "all sequences of add, remove and lookup", "why_tests_cant": "sequences unbounded", "anchors": ["mts/protocol/objectpropertycache.cpp"]}
{"id": "C16", "title": "Batched cache lookup partitions the request", "statement": "Looking up a list of properties reports every requested property exactly once, as found with the cached value or as not found, in request order.", "quantifier": "all lists and cache states", "why_tests_cant": "lists unbounded", "anchors": ["mts/protocol/objectpropertycache.cpp:get"]}
{"id": "C17", "title": "Property reads through the factory are never stale", "statement": "Reading a property of an object returns the value the storage holds at that moment, provided every change is made through the factory or announced by the storage.", "quantifier": "all histories of reads, mass queries, sets, announced changes and deletions", "why_tests_cant": "depends on the interleaving of caching and invalidation", "anchors": ["mts/platform/storage/storagefactory.cpp:getObjectPropertyValue", "mts/platform/storage/storagefactory.cpp:setObjectPropertyValue", "mts/platform/storage/storagefactory.cpp:onStorageEvent"]}
{"id": "C18", "title": "The object tree stays well formed", "statement": "After any history of adds, deletes, moves, renames and file-system notifications: every object has a different path, every path maps to the object having it, every object but the root has a parent object that lists it exactly once as child, and its path is its parent's path plus its name.", "quantifier": "all operation histories, any tree shape", "why_tests_cant": "histories and tree shapes unbounded", "anchors": ["mts/platform/storage/fsstorageplugin/fsstorageplugin.cpp:addToStorage", "mts/platform/storage/fsstorageplugin/fsstorageplugin.cpp:linkChildStorageItem", "mts/platform/storage/fsstorageplugin/fsstorageplugin.cpp:unlinkChildStorageItem", "mts/platform/storage/fsstorageplugin/fsstorageplugin.cpp:moveObject", "mts/platform/storage/fsstorageplugin/fsstorageplugin.cpp:deleteItemHelper"]}
{"id": "C19", "title": "Deleting removes exactly the subtree", "statement": "A successful delete of an object makes its handle and the handles of all its descendants invalid and leaves every other object (handle, path, parent) unchanged; if any part cannot be deleted the result is not OK.", "quantifier": "all trees, all objects, all patterns of file-system refusals", "why_tests_cant": "tree shapes and failure patterns unbounded", "anchors": ["mts/platform/storage/fsstorageplugin/fsstorageplugin.cpp:deleteItemHelper", "mts/platform/storage/fsstorageplugin/fsstorageplugin.cpp:removeFromStorage"]}
{"id": "C20", "title": "A handle denotes the same object for its life", "statement": "An object's handle keeps its path, parent and contents until a rename, move or delete of it or of an ancestor; handles of deleted objects are not reused while the counter has not wrapped.", "quantifier": "all operation histories", "why_tests_cant": "histories unbounded", "anchors": ["mts/platform/storage/fsstorageplugin/fsstorageplugin.cpp:addToStorage", "mts/platform/storage/fsstorageplugin/fsstorageplugin.cpp:addItemToMaps", "mts/platform/storage/storagefactory.cpp:getObjectHandle"]}
{"id": "C21", "title": "Moving an object keeps its handle and moves its whole subtree", "statement": "After a successful move within a storage the object and all its descendants keep their handles, their paths are the old ones with the prefix replaced, the new parent lists the object, the old one no longer does, and all other objects are unchanged.", "quantifier": "all trees, all sources and destinations", "why_tests_cant": "tree shapes unbounded", "anchors": ["mts/platform/storage/fsstorageplugin/fsstorageplugin.cpp:moveObject", "mts/platform/storage/fsstorageplugin/fsstorageplugin.cpp:adjustMovedItemsPath"]}
{"id": "C22", "title": "Enumeration lists each matching object exactly once", "statement": "Asking for handles under an association (or all, or the root level) with or without a format filter returns each matching object exactly once and nothing else, the object count equals the number of handles, and the response is sorted.", "quantifier": "all trees, filters and associations", "why_tests_cant": "trees unbounded", "anchors": ["mts/platform/storage/fsstorageplugin/fsstorageplugin.cpp:getObjectHandles", "mts/protocol/mtpresponder.cpp:getObjectHandlesReq", "mts/protocol/mtpresponder.cpp:getNumObjectsReq"]}
{"id": "C23", "title": "The storage root cannot be deleted", "statement": "No delete request, for the root itself, for everything, or by format, removes the root object of a storage.", "quantifier": "all delete requests and trees", "why_tests_cant": "trees unbounded", "anchors": ["mts/platform/storage/fsstorageplugin/fsstorageplugin.cpp:deleteItem", "mts/platform/storage/fsstorageplugin/fsstorageplugin.cpp:deleteItemHelper"]}
{"id": "C24", "title": "Host-chosen names stay inside their folder", "statement": "A name accepted when renaming contains no path separator, is not '.' or '..' and designates an entry of the same folder; likewise objects created by the host lie inside the chosen parent folder.", "quantifier": "all strings a host can send", "why_tests_cant": "strings unbounded", "anchors": ["mts/platform/storage/fsstorageplugin/fsstorageplugin.cpp:isFileNameValid", "mts/platform/storage/fsstorageplugin/fsstorageplugin.cpp:addItem", "mts/platform/storage/fsstorageplugin/fsstorageplugin.cpp:setObjectPropertyValue"]}
{"id": "C25", "title": "Symbolic-link policy is enforced", "statement": "Under 'deny all' no symlink is exposed; under 'within storage' a symlink is exposed only if its target lies strictly inside the storage directory (on a path-component boundary); broken links are never exposed.", "quantifier": "all paths and link targets", "why_tests_cant": "strings unbounded; prefix boundary cases", "anchors": ["mts/platform/storage/fsstorageplugin/fsstorageplugin.cpp:addToStorage"]}
{"id": "C26", "title": "Object references only name live objects", "statement": "References are stored only if every referenced object exists; a query returns exactly the stored references that still exist, in order; a rejected request changes nothing.", "quantifier": "all histories of reference updates, deletes and queries", "why_tests_cant": "histories unbounded", "anchors": ["mts/platform/storage/fsstorageplugin/fsstorageplugin.cpp:getReferences", "mts/platform/storage/fsstorageplugin/fsstorageplugin.cpp:setReferences"]}
{"id": "C27", "title": "Reading file data returns exactly the requested bytes", "statement": "Reading length bytes at an offset returns exactly those bytes of the file, for any way the OS splits the reads; a range past the end is refused.", "quantifier": "all file contents, ranges and short-read patterns", "why_tests_cant": "short reads are scheduled by the OS", "anchors": ["mts/platform/storage/fsstorageplugin/fsstorageplugin.cpp:readData"]}
{"id": "C28", "title": "Sequential upload stores exactly the sent bytes", "statement": "Writing an object as a sequence of segments (first ... last) leaves the file containing exactly their concatenation, whatever the file held before.", "quantifier": "all segment sequences and previous contents", "why_tests_cant": "unbounded sequences", "anchors": ["mts/platform/storage/fsstorageplugin/fsstorageplugin.cpp:writeData"]}
{"id": "C29", "title": "Partial write and truncate edit exactly the addressed range", "statement": "A partial write at an offset changes exactly the addressed bytes (zero filling a gap), keeps the rest, and the reported size equals the file size; truncation keeps the prefix.", "quantifier": "all contents, offsets, data, sequences of edits", "why_tests_cant": "unbounded", "anchors": ["mts/platform/storage/fsstorageplugin/fsstorageplugin.cpp:writePartialData", "mts/platform/storage/fsstorageplugin/fsstorageplugin.cpp:truncateItem"]}
{"id": "C30", "title": "Copying an object duplicates its contents or reports failure", "statement": "A copy reported as successful has the same bytes as the source; a read or write failure or a cancel is reported and not taken for success.", "quantifier": "all contents, sizes and failure points", "why_tests_cant": "failure points and sizes unbounded", "anchors": ["mts/platform/storage/storageplugin.cpp:copyData", "mts/platform/storage/fsstorageplugin/fsstorageplugin.cpp:copyObject"]}
{"id": "C31", "title": "An object download is the object, in bounded frames", "statement": "The frames of a GetObject data phase carry a header whose length is 12 plus the object's size (or the large marker), their payloads concatenate to exactly the requested bytes, no frame exceeds 16 KiB, exactly the last one is marked last, and a transfer that starts but fails is never followed by an OK response.", "quantifier": "all objects, sizes, ranges and read-failure points", "why_tests_cant": "sizes unbounded", "anchors": ["mts/protocol/mtpresponder.cpp:sendObjectSegmented", "mts/protocol/mtpresponder.cpp:getObjectCommon"]}
{"id": "C32", "title": "Partial download ranges are clipped to the object", "statement": "A partial read at offset o for n bytes sends exactly the bytes [o, min(o+n,size)); an offset beyond the end is refused; the reported count equals the number of bytes sent.", "quantifier": "all 64-bit offsets, lengths and sizes", "why_tests_cant": "64-bit boundary arithmetic", "anchors": ["mts/protocol/mtpresponder.cpp:getObjectCommon", "mts/protocol/mtpresponder.cpp:getPartialObjectReq"]}
{"id": "C33", "title": "An upload is acknowledged only when complete", "statement": "SendObject is answered OK only after at least the announced number of bytes were stored; if the data ends early the object is truncated and IncompleteTransfer is reported; there is exactly one verdict.", "quantifier": "all announced sizes and packetizations", "why_tests_cant": "packetizations unbounded", "anchors": ["mts/protocol/mtpresponder.cpp:sendObjectData", "mts/protocol/mtpresponder.cpp:sendObjectCheck"]}
{"id": "C34", "title": "Uploaded data goes to the object announced last", "statement": "The data of a SendObject is written to the object created by the most recent successful SendObjectInfo/SendObjectPropList of the session.", "quantifier": "all interleavings of announcements, failures, cancels and uploads", "why_tests_cant": "histories unbounded", "anchors": ["mts/protocol/mtpresponder.cpp:sendObjectData", "mts/protocol/mtpresponder.cpp:sendObjectInfoData", "mts/protocol/mtpresponder.cpp:sendObjectPropListReq"]}
{"id": "C35", "title": "Session discipline", "statement": "Apart from session-independent queries, no operation is carried out without an open session: it is answered SessionNotOpen and changes nothing; a second open is answered SessionAlreadyOpen with the current id and keeps it; open with id 0 is refused; close ends the session.", "quantifier": "all command histories", "why_tests_cant": "histories unbounded", "anchors": ["mts/protocol/mtpresponder.cpp:preCheck", "mts/protocol/mtpresponder.cpp:openSessionReq", "mts/protocol/mtpresponder.cpp:closeSessionReq"]}
{"id": "C36", "title": "Every command gets exactly one response", "statement": "Each accepted command transaction that is not cancelled, reset or suspended is answered by exactly one response container, and no response is sent when no transaction is open.", "quantifier": "all operations, packet sequences and failure points", "why_tests_cant": "histories unbounded", "anchors": ["mts/protocol/mtpresponder.cpp:commandHandler", "mts/protocol/mtpresponder.cpp:sendResponse", "mts/protocol/mtpresponder.cpp:sendContainer"]}
{"id": "C37", "title": "Responses echo the transaction id", "statement": "The response to a command carries that command's 32-bit transaction id.", "quantifier": "all transaction ids and operations", "why_tests_cant": "2^32 ids; a 16-bit path is only visible for long sessions", "anchors": ["mts/protocol/mtpresponder.cpp:sendResponse"]}
{"id": "C38", "title": "Cancelling an upload leaves no half object and frees the responder", "statement": "After a cancel during SendObject/SendObjectInfo/SendObjectPropList the announced object no longer exists, no announced upload is pending, and the next command is accepted normally; a cancel without transaction changes nothing.", "quantifier": "all points at which a cancel may arrive", "why_tests_cant": "cancel is asynchronous", "anchors": ["mts/protocol/mtpresponder.cpp:handleCancelTransaction"]}
{"id": "C39", "title": "Commands arriving before the storage is ready are served later, once", "statement": "A command (and its data) received while storages are enumerating is processed exactly once after they become ready, with the data in order; commands that don't need storage are answered at once.", "quantifier": "all arrival orders of packets and readiness", "why_tests_cant": "schedule dependent", "anchors": ["mts/protocol/mtpresponder.cpp:receiveContainer", "mts/protocol/mtpresponder.cpp:commandHandler", "mts/protocol/mtpresponder.cpp:onStorageReady", "mts/protocol/mtpresponder.cpp:needsStorageReady"]}
{"id": "C40", "title": "In-place editing requires an edit session on that object", "statement": "Partial writes and truncations change an object only between BeginEdit and EndEdit of that same object; otherwise they are refused and change nothing; EndEdit re-enables its events.", "quantifier": "all operation histories", "why_tests_cant": "histories unbounded", "anchors": ["mts/protocol/mtpresponder.cpp:beginEditObjectReq", "mts/protocol/mtpresponder.cpp:endEditObjectReq", "mts/protocol/mtpresponder.cpp:truncateObject64Req", "mts/protocol/mtpresponder.cpp:sendPartialObject64Data"]}
{"id": "C41", "title": "Change events are filtered per object and correctly addressed", "statement": "An object-changed/removed event is sent to the host iff the host has enabled events on the object (object-added always), carries transaction id 0xFFFFFFFF and the object's handle; none is sent for an object being edited.", "quantifier": "all event and request histories", "why_tests_cant": "histories unbounded", "anchors": ["mts/protocol/mtpresponder.cpp:dispatchEvent", "mts/platform/storage/fsstorageplugin/fsstorageplugin.cpp:getObjectInfo"]}
{"id": "C42", "title": "Busy/idle notifications alternate", "statement": "The 'command pending' and 'command finished' notifications alternate strictly, starting with pending, and reflect whether a transaction is open.", "quantifier": "all histories", "why_tests_cant": "histories unbounded", "anchors": ["mts/protocol/mtpresponder.cpp:setResponderState"]}
{"id": "C43", "title": "Suspend and resume lose nothing", "statement": "A response or data container produced while suspended is sent unchanged after resume, and the interrupted transaction continues in the state it was in.", "quantifier": "all suspend/resume points", "why_tests_cant": "schedule dependent", "anchors": ["mts/protocol/mtpresponder.cpp:handleSuspend", "mts/protocol/mtpresponder.cpp:handleResume", "mts/protocol/mtpresponder.cpp:sendContainer"]}
{"id": "C44", "title": "Dates survive conversion", "statement": "A file time converted to an MTP date string and back gives the same time, for every time and UTC offset; every string is either parsed to the time it denotes or rejected.", "quantifier": "all times and UTC offsets; all strings", "why_tests_cant": "unbounded strings; time zones", "anchors": ["mts/platform/storage/fsstorageplugin/fsstorageplugin.cpp:datetime_from_time_t", "mts/platform/storage/fsstorageplugin/fsstorageplugin.cpp:datetime_to_time_t"]}
{"id": "C45", "title": "Moves on the device are recognised by cookie", "statement": "A moved-from/moved-to pair with equal cookie is treated as one move; an unpaired moved-from becomes a deletion, an unpaired moved-to a creation; none is lost or processed twice.", "quantifier": "all notification sequences", "why_tests_cant": "sequences unbounded", "anchors": ["mts/platform/storage/fsstorageplugin/fsstorageplugin.cpp:inotifyEventSlot"]}
{"id": "C46", "title": "Storage readiness is announced exactly when all storages are ready", "statement": "The ready state becomes true exactly when every storage has reported and never goes back.", "quantifier": "all orders of reports and any number of storages", "why_tests_cant": "orders unbounded", "anchors": ["mts/platform/storage/storagefactory.cpp:onStoragePluginReady", "mts/platform/storage/storagefactory.cpp:storageIsReady"]}
{"id": "C47", "title": "Free-space events are throttled but never stuck", "statement": "A storage-info-changed event is sent exactly when the used percentage differs from the last one announced.", "quantifier": "all sequences of free-space values", "why_tests_cant": "sequences unbounded", "anchors": ["mts/platform/storage/fsstorageplugin/fsstorageplugin.cpp:sendStorageInfoChanged"]}
{"id": "C48", "title": "The USB receive buffer is a lossless FIFO", "statement": "Under every interleaving of the reader thread and the main thread the bytes consumed are a prefix of the bytes read from USB, in order; the reader never overwrites unconsumed data and never writes outside the buffer.", "quantifier": "all interleavings, read sizes and release sizes", "why_tests_cant": "thread schedules", "anchors": ["mts/transport/usb/threadio.cpp:_getOffset_locked", "mts/transport/usb/threadio.cpp:_markNewData", "mts/transport/usb/threadio.cpp:getData", "mts/transport/usb/threadio.cpp:releaseData"]}
{"id": "C49", "title": "Container framing does not depend on how USB reads are cut", "statement": "For any byte stream consisting of well-formed containers and any cutting of it into reads, the packets delivered concatenate per container to exactly those containers, with first/last marks exactly at their ends, and processing any received data terminates.", "quantifier": "all streams, all cuttings", "why_tests_cant": "exponentially many cuttings", "anchors": ["mts/transport/usb/mtptransporterusb.cpp:processReceivedData"]}
{"id": "C50", "title": "A bulk write delivers exactly the data or reports failure", "statement": "A bulk write reported successful has passed exactly the given bytes in order to the kernel, ended by a zero-length packet iff it terminates a transfer whose length is a multiple of the packet size; otherwise failure is reported.", "quantifier": "all data, all patterns of short writes and errors", "why_tests_cant": "error patterns unbounded", "anchors": ["mts/transport/usb/threadio.cpp:BulkWriterThread::execute"]}
{"id": "C51", "title": "The event queue is a bounded FIFO that drops the oldest", "statement": "At most 512 events are queued; the queue always holds the most recent events in order; events are sent in order.", "quantifier": "all sequences of add/take/flush", "why_tests_cant": "sequences unbounded", "anchors": ["mts/transport/usb/threadio.cpp:addData", "mts/transport/usb/threadio.cpp:InterruptWriterThread::execute"]}
{"id": "C52", "title": "Event sending never runs alongside bulk traffic and gives up after three time-outs", "statement": "Events are started only in a session, when the responder is idle, no bulk write is active and no event is in flight; after three successive time-outs none is sent until the session is reopened.", "quantifier": "all schedules of commands, completions and time-outs", "why_tests_cant": "schedule dependent", "anchors": ["mts/transport/usb/mtptransporterusb.cpp:sendQueuedEvent", "mts/transport/usb/mtptransporterusb.cpp:sendEvent", "mts/transport/usb/mtptransporterusb.cpp:eventTimeout", "mts/transport/usb/mtptransporterusb.cpp:eventCompleted", "mts/transport/usb/mtptransporterusb.cpp:sessionOpenChanged"]}
{"id": "C53", "title": "Advertised operations are implemented", "statement": "Every operation advertised in the device info is dispatched to a handler, and every other code is answered OperationNotSupported.", "quantifier": "all 16-bit operation codes", "why_tests_cant": "needs a total case analysis tied to both tables", "anchors": ["mts/platform/deviceinfo/mtpdeviceinfo.cpp:m_operationsSupportedTable", "mts/protocol/mtpresponder.cpp:commandHandler"]}
{"id": "C54", "title": "Advertised object properties can be described", "statement": "Each property code listed as supported for a format category has a description for that category and vice versa.", "quantifier": "all formats and property codes", "why_tests_cant": "cross-table consistency", "anchors": ["mts/protocol/propertypod.cpp:getObjectPropsSupportedByType", "mts/protocol/propertypod.cpp:getObjectPropDesc"]}
{"id": "C55", "title": "Thumbnails are requested at most once and never while busy", "statement": "Each image is queued for thumbnailing at most once until it is ready, requests go out in order in batches of at most 128, none is lost, and none is sent while a command is being handled.", "quantifier": "all schedules of requests, commands, timer ticks and replies", "why_tests_cant": "schedule dependent", "anchors": ["mts/platform/storage/fsstorageplugin/thumbnailer.cpp"]}
{"id": "C56", "title": "Persistent ids survive a restart", "statement": "The id table written to disk and read back gives every path the same id and the same allocation high-water mark; a file cut off at any point yields only entries that were written.", "quantifier": "all tables, all path names, all crash points", "why_tests_cant": "unbounded tables and crash points", "anchors": ["mts/platform/storage/fsstorageplugin/fsstorageplugin.cpp:storePuoids", "mts/platform/storage/fsstorageplugin/fsstorageplugin.cpp:populatePuoids"]}
{"id": "C57", "title": "Object references survive a restart", "statement": "The reference table written to disk and read back in a later run yields for each object the references to the same objects (those that still exist).", "quantifier": "all tables and all re-enumeration handle assignments", "why_tests_cant": "unbounded tables", "anchors": ["mts/platform/storage/fsstorageplugin/fsstorageplugin.cpp:storeObjectReferences", "mts/platform/storage/fsstorageplugin/fsstorageplugin.cpp:populateObjectReferences"]}
{"id": "C58", "title": "Exported storages get distinct descriptions", "statement": "No two exported storages have the same label or the same path.", "quantifier": "all sets of configured paths and labels", "why_tests_cant": "unbounded label sets", "anchors": ["mts/platform/storage/fsstorageplugin/fsstoragepluginfactory.cpp:makeLabelsUnique", "mts/platform/storage/fsstorageplugin/fsstoragepluginfactory.cpp:create"]}
{"id": "C59", "title": "Requests are routed to the storage that owns the object", "statement": "A request about an object handle is executed by a storage that contains that handle and by no other; an unknown handle is reported invalid by every operation; an unknown storage id is refused.", "quantifier": "all sets of storages and handles", "why_tests_cant": "unbounded sets of storages", "anchors": ["mts/platform/storage/storagefactory.cpp:storageOfHandle", "mts/platform/storage/storagefactory.cpp:addItem", "mts/platform/storage/storagefactory.cpp:deleteItem", "mts/platform/storage/storagefactory.cpp:getObjectHandles"]}
{"id": "C60", "title": "Property list responses announce the number of elements they carry", "statement": "The element count at the start of a GetObjectPropList dataset equals the number of (handle, property, type, value) elements that follow, one per requested property of each requested object that has a value.", "quantifier": "all objects, property sets and values", "why_tests_cant": "unbounded", "anchors": ["mts/protocol/mtpresponder.cpp:getObjectPropListReq", "mts/protocol/mtpresponder.cpp:serializePropList"]}
{"id": "C61", "title": "Every configured directory is exported", "statement": "Every directory matched by a usable storage configuration file is exported to the host as a storage exactly once, under a volume label that extends the label given in the configuration file.", "quantifier": "all configuration files, all sets of matched directories and all labels", "why_tests_cant": "unbounded sets of configuration files, matched directories and label clashes", "anchors": ["mts/platform/storage/fsstorageplugin/fsstoragepluginfactory.cpp:makeLabelsUnique", "mts/platform/storage/fsstorageplugin/fsstoragepluginfactory.cpp:create"]}
{"id": "C62", "title": "Default values satisfy their own descriptions", "statement": "The default value in the description of a supported object property is one of the values that description allows (inside its range, a member of its enumeration).", "quantifier": "all devices, formats and supported properties", "why_tests_cant": "cross-table consistency over device-dependent limits", "anchors": ["mts/protocol/propertypod.cpp:m_commonPropDesc", "mts/protocol/propertypod.cpp:populateEnumDesc", "mts/protocol/propertypod.cpp:populateTechObjPropDesc"]}
{"id": "C63", "title": "A property that was set is told back", "statement": "SetObjPropValue on a property the device describes as settable, with a value of its type, is answered OK, and GetObjPropValue then returns the value sent, while no other property or object changes; a property described as read-only, an unsupported property, an unknown object and an unacceptable file name are each refused with their own code and nothing changes.", "quantifier": "all devices, objects, properties, values, packetings and earlier histories", "why_tests_cant": "quantifies over all values, packet splits and states of the property cache", "anchors": ["mts/protocol/mtpresponder.cpp:setObjPropValueData", "mts/protocol/mtpresponder.cpp:setObjectPropListData", "mts/protocol/mtpresponder.cpp:sendObjectPropListData", "mts/platform/storage/storagefactory.cpp:setObjectPropertyValue", "mts/platform/storage/fsstorageplugin/fsstorageplugin.cpp:setObjectPropertyValue"]}
{"id": "C64", "title": "SetObjectPropList stops at the first element that cannot be set and names it", "statement": "A SetObjectPropList request sets its elements in order; if one cannot be set, exactly the elements before it have been set and the response carries the reason with the zero-based position of that element; otherwise the response is OK.", "quantifier": "all property lists, all packetings and all device states", "why_tests_cant": "unbounded lists with a failure at any position", "anchors": ["mts/protocol/mtpresponder.cpp:setObjPropValueData", "mts/protocol/mtpresponder.cpp:setObjectPropListData", "mts/protocol/mtpresponder.cpp:sendObjectPropListData", "mts/platform/storage/storagefactory.cpp:setObjectPropertyValue", "mts/platform/storage/fsstorageplugin/fsstorageplugin.cpp:setObjectPropertyValue"]}
{"id": "C65", "title": "SendObjectPropList makes exactly the object announced", "statement": "SendObjectPropList makes an object only if every element of its list belongs to the object to come and is a property of the announced format and the list has a non-empty file name; the object gets the announced storage, parent, format, size and name, and the response tells where it is; otherwise the response gives the position of the offending element and nothing is made. When the upload is complete, the host is told the values it announced.", "quantifier": "all announcements, packetings, storages and device states", "why_tests_cant": "unbounded lists and any storage behaviour", "anchors": ["mts/protocol/mtpresponder.cpp:setObjPropValueData", "mts/protocol/mtpresponder.cpp:setObjectPropListData", "mts/protocol/mtpresponder.cpp:sendObjectPropListData", "mts/platform/storage/storagefactory.cpp:setObjectPropertyValue", "mts/platform/storage/fsstorageplugin/fsstorageplugin.cpp:setObjectPropertyValue"]}
{"id": "C66", "title": "Device properties tell and take the truth", "statement": "Asking for the description or value of one of the device's five properties (battery level, synchronisation partner, friendly name, icon, device type) yields, in the standard layout, its type, whether it can be set, its start-up and its present value; setting the friendly name or the partner is answered OK, takes effect for exactly that property and is read back until it is set again; a property described as read-only and codes the device does not have are refused without effect; the codes listed in the device information are supported; every change of the battery level, and nothing else, is announced, and the level stays in its described range.", "quantifier": "every device state, every string, every packetization of the data, every sequence of descriptions, reads, sets and battery reports", "why_tests_cant": "the value must survive arbitrary interleavings with other operations and be decoded by any conforming host; tests sample a few", "anchors": ["mts/protocol/propertypod.cpp:PropertyPod::getDevicePropDesc", "mts/protocol/mtpresponder.cpp:getDevicePropDescReq", "mts/protocol/mtpresponder.cpp:getDevicePropValueReq", "mts/protocol/mtpresponder.cpp:setDevicePropValueReq", "mts/protocol/mtpresponder.cpp:setDevicePropValueData", "mts/platform/deviceinfo/mtpdeviceinfo.cpp:setBatteryLevel"]}
{"id": "C67", "title": "The device's name survives a restart", "statement": "A friendly name or synchronisation partner set by the host is what the device reports after the next restart, whatever device property operations came before and whatever others came after.", "quantifier": "every name, every configuration file that has the element for the value, every history", "why_tests_cant": "needs restarts after unboundedly many operations", "anchors": ["mts/platform/deviceinfo/mtpdeviceinfo.cpp:modifyDeviceInfoXml", "mts/platform/deviceinfo/mtpdeviceinfo.cpp:MtpDeviceInfo::MtpDeviceInfo", "mts/platform/deviceinfo/xmlhandler.cpp:characters"]}
{"id": "C68", "title": "Device information is complete", "statement": "A host asking GetDeviceInfo reads exactly the versions, operations, events, device properties, formats and texts of the device; whatever the configuration file contains, every built-in operation and format is advertised, and no operation that is neither built in nor configured.", "quantifier": "all configuration files (any sequence of elements, readable or not), all device information that fits its types", "why_tests_cant": "the configuration file and its damage are unbounded, and the dataset has variable length", "anchors": ["mts/protocol/mtpresponder.cpp:getDeviceInfoReq", "mts/platform/deviceinfo/mtpdeviceinfo.cpp:MtpDeviceInfo", "mts/platform/deviceinfo/xmlhandler.cpp:characters"]}
{"id": "C69", "title": "Storage information is right", "statement": "A host reads exactly the storage ids, and for each its type, capacity, free space, description and label; unknown ids are answered InvalidStorageID and a failing file system query GeneralError.", "quantifier": "all sets of storages, all file system statistics", "why_tests_cant": "sizes range over 64-bit products and strings over all texts", "anchors": ["mts/protocol/mtpresponder.cpp:getStorageIDReq", "mts/protocol/mtpresponder.cpp:getStorageInfoReq", "mts/platform/storage/fsstorageplugin/fsstorageplugin.cpp:storageInfo"]}
{"id": "C70", "title": "Handle lists, references and object information reach the host", "statement": "The data phases of GetObjectHandles, GetObjectReferences and GetObjectInfo are read by the host as exactly the handles asked for, the references last stored, and what the device knows about the object; refused queries have no data phase; references sent in any packets are stored as sent.", "quantifier": "all trees, all queries, all reference lists, all packetisations, all object information that fits its types", "why_tests_cant": "lists and packetisations are unbounded", "anchors": ["mts/protocol/mtpresponder.cpp:getObjectHandlesReq", "mts/protocol/mtpresponder.cpp:getObjReferencesReq", "mts/protocol/mtpresponder.cpp:setObjReferencesData", "mts/protocol/mtpresponder.cpp:getObjectInfoReq"]}
{"id": "C71", "title": "CopyObject makes an exact, independent copy", "statement": "A CopyObject answered OK leaves, below the destination folder of the same or another storage, one new object for every object of the copied subtree, with the same name, format, relative path and contents and a handle not in use before; the originals and all other objects are unchanged, also when the copy is cancelled, runs out of space or fails half way; if nothing is refused the copy ends and is answered OK.", "quantifier": "all source and destination trees of any size and depth, all objects and destinations, all outcomes of every single file copy", "why_tests_cant": "trees, depths and the points of failure are unbounded", "anchors": ["mts/platform/storage/fsstorageplugin/fsstorageplugin.cpp:FSStoragePlugin::copyObject", "mts/platform/storage/storagefactory.cpp:StorageFactory::copyObject", "mts/platform/storage/storageplugin.cpp:copyData"]}
{"id": "C72", "title": "MoveObject between storages keeps handles and contents", "statement": "A MoveObject to another storage answered OK leaves every object of the moved subtree in the other storage under its old handle, with the same name, format, relative path and contents, and none of them in the old storage; nothing else changes in either; a refused move leaves no handle in both storages.", "quantifier": "all pairs of storages, all subtrees, all destinations, all outcomes of file copies and of the file system", "why_tests_cant": "trees and failure points are unbounded", "anchors": ["mts/platform/storage/fsstorageplugin/fsstorageplugin.cpp:FSStoragePlugin::moveObject", "mts/platform/storage/fsstorageplugin/fsstorageplugin.cpp:FSStoragePlugin::copyHandle"]}
{"id": "C73", "title": "Copying keeps folders watched", "statement": "After a CopyObject every folder that was watched for changes on the device is still watched and every folder created by the copy is watched too.", "quantifier": "all trees, sources, destinations and outcomes", "why_tests_cant": "trees and failure points are unbounded", "anchors": ["mts/platform/storage/fsstorageplugin/fsstorageplugin.cpp:FSStoragePlugin::copyObject", "mts/platform/storage/fsstorageplugin/fsstorageplugin.cpp:FSStoragePlugin::addToStorage"]}
{"id": "C74", "title": "Change events mirror the device's changes", "statement": "While the device side creates, removes, moves and renames files, the host receives ObjectAdded for exactly each object that appears, ObjectRemoved for exactly each object that disappears and ObjectInfoChanged for each that moves, so that a host that knew all objects and follows the events always knows exactly the objects of the storage; the host's own operations are not announced to it.", "quantifier": "every well-formed tree, every history of file-system notifications with any contents below a new entry, mixed with host moves and renames", "why_tests_cant": "the set of events depends on the whole tree and on nested contents; unit tests see a few fixed trees", "anchors": ["mts/platform/storage/fsstorageplugin/fsstorageplugin.cpp:FSStoragePlugin::handleFSCreate", "mts/platform/storage/fsstorageplugin/fsstorageplugin.cpp:FSStoragePlugin::handleFSDelete", "mts/platform/storage/fsstorageplugin/fsstorageplugin.cpp:FSStoragePlugin::handleFSMove", "mts/platform/storage/fsstorageplugin/fsstorageplugin.cpp:FSStoragePlugin::addToStorage", "mts/platform/storage/fsstorageplugin/fsstorageplugin.cpp:FSStoragePlugin::deleteItemHelper", "mts/platform/storage/fsstorageplugin/fsstorageplugin.cpp:FSStoragePlugin::removeFromStorage"]}
{"id": "C75", "title": "SendObjectInfo creates exactly the announced object", "statement": "Announcing an object in an existing folder under a free name and answered OK creates exactly one object, with a new valid handle, the announced name, format and parent, at the folder's path; nothing else changes. A refused announcement creates nothing. A name already taken does not create anything.", "quantifier": "every well-formed tree, every announced object info with a name without separators, every file-system answer", "why_tests_cant": "all trees, names, handle counters", "anchors": ["mts/platform/storage/fsstorageplugin/fsstorageplugin.cpp:FSStoragePlugin::addItem", "mts/platform/storage/fsstorageplugin/fsstorageplugin.cpp:FSStoragePlugin::addToStorage", "mts/platform/storage/fsstorageplugin/fsstorageplugin.cpp:FSStoragePlugin::createFile", "mts/platform/storage/fsstorageplugin/fsstorageplugin.cpp:FSStoragePlugin::createDirectory"]}
{"id": "C76", "title": "Sizes and dates said are those of the files", "statement": "While the host uploads, edits, renames and deletes objects and programs on the device create, change, rename and delete files, once nothing is going on (no notification waiting, no changed file open, no transfer) the size and the dates the storage says about each object are those of its file; until then they are wrong only for files with a notification waiting, a program writing or the host sending. Every difference a notification makes is told to the host by exactly the matching event, and no event is sent without a difference.", "quantifier": "every set of files, every history of host requests, program steps and notification deliveries in any interleaving, every time zone and every success or failure of system calls", "why_tests_cant": "schedules of notifications against host requests and programs are unbounded; a test sees one of them", "anchors": ["mts/platform/storage/fsstorageplugin/fsstorageplugin.cpp:FSStoragePlugin::populateObjectInfo", "mts/platform/storage/fsstorageplugin/fsstorageplugin.cpp:FSStoragePlugin::handleFSModify", "mts/platform/storage/fsstorageplugin/fsstorageplugin.cpp:FSStoragePlugin::handleFSMove", "mts/platform/storage/fsstorageplugin/fsstorageplugin.cpp:FSStoragePlugin::writeData", "mts/platform/storage/fsstorageplugin/fsstorageplugin.cpp:FSStoragePlugin::truncateItem", "mts/common/mtptypes.h:MTPObjectInfo::differsFrom"]}
{"id": "C77", "title": "The format said is the one the name stands for", "statement": "The format of a file is determined by the extension of its name, in whatever case, and Undefined for other names; once nothing is going on every object's format is that of its present name.", "quantifier": "every path, every history of host requests, program steps and notification deliveries", "why_tests_cant": "all names and all histories", "anchors": ["mts/platform/storage/fsstorageplugin/fsstorageplugin.cpp:FSStoragePlugin::getObjectFormatByExtension", "mts/platform/storage/fsstorageplugin/fsstorageplugin.cpp:FSStoragePlugin::setObjectPropertyValue", "mts/platform/storage/fsstorageplugin/fsstorageplugin.cpp:FSStoragePlugin::moveObject"]}
{"id": "C78", "title": "The announced format is kept", "statement": "An object the host has sent keeps the format and size the host announced for it.", "quantifier": "every storage, every announcement", "why_tests_cant": "all announcements and all schedules of the notification", "anchors": ["mts/platform/storage/fsstorageplugin/fsstorageplugin.cpp:FSStoragePlugin::addToStorage", "mts/platform/storage/fsstorageplugin/fsstorageplugin.cpp:FSStoragePlugin::handleFSModify"]}
{"id": "C79", "title": "Formats said are advertised formats", "statement": "Every format the storage computes for a file is among the formats GetDeviceInfo advertises.", "quantifier": "every path, every configuration file", "why_tests_cant": "all names, all configurations", "anchors": ["mts/platform/storage/fsstorageplugin/fsstorageplugin.cpp:FSStoragePlugin::buildSupportedFormatsList", "mts/platform/deviceinfo/mtpdeviceinfo.cpp:MtpDeviceInfo::MtpDeviceInfo"]}
{"id": "C80", "title": "Pictures have thumbnails whatever the case of their extension", "statement": "A file whose format is one of the pictures with thumbnails is said to have a thumbnail, independently of the case of its extension.", "quantifier": "every path", "why_tests_cant": "all names", "anchors": ["mts/platform/storage/fsstorageplugin/fsstorageplugin.cpp:FSStoragePlugin::isThumbnailableImage", "mts/platform/storage/fsstorageplugin/fsstorageplugin.cpp:FSStoragePlugin::getThumbFormat"]}
{"id": "C81", "title": "The objects are the files, however late notifications come", "statement": "At any time every object is a file or the notification that it went is waiting, and no two objects are the same file; once all notifications are handled every file is an object.", "quantifier": "every set of files, every history of host requests, program steps and notification deliveries in any interleaving", "why_tests_cant": "schedules of notifications against host requests and programs are unbounded", "anchors": ["mts/platform/storage/fsstorageplugin/fsstorageplugin.cpp:FSStoragePlugin::inotifyEventSlot", "mts/platform/storage/fsstorageplugin/fsstorageplugin.cpp:FSStoragePlugin::handleFSCreate", "mts/platform/storage/fsstorageplugin/fsstorageplugin.cpp:FSStoragePlugin::handleFSDelete", "mts/platform/storage/fsstorageplugin/fsstorageplugin.cpp:FSStoragePlugin::handleFSMove", "mts/platform/storage/fsstorageplugin/fsstorageplugin.cpp:FSStoragePlugin::addToStorage"]}
{"id": "C82", "title": "What is uploaded is what is downloaded", "statement": "When a host announces a new object and sends its data, both are answered OK with a new handle, and a later GetObject of that handle is answered OK with exactly the bytes sent; other objects are not affected.", "quantifier": "every object dataset, data, way of cutting the transfers into packets, state of the storage in which the object can be created, and history of reading, moving and renaming requests in between", "why_tests_cant": "all contents, packetizations, storage states and intermediate histories", "anchors": ["mts/protocol/mtpresponder.cpp:MTPResponder::sendObjectInfoData", "mts/protocol/mtpresponder.cpp:MTPResponder::sendObjectData", "mts/protocol/mtpresponder.cpp:MTPResponder::sendObjectSegmented", "mts/platform/storage/fsstorageplugin/fsstorageplugin.cpp:FSStoragePlugin::addItem", "mts/platform/storage/fsstorageplugin/fsstorageplugin.cpp:FSStoragePlugin::writeData", "mts/platform/storage/fsstorageplugin/fsstorageplugin.cpp:FSStoragePlugin::readData"]}
{"id": "C83", "title": "What is announced is what is told", "statement": "GetObjectInfo about a newly uploaded file (below 4 GB) returns the dataset the host announced, with the storage and folder the object was put in; its dates are those of the file, which is given the announced date of modification.", "quantifier": "every dataset, storage state and packetization", "why_tests_cant": "all datasets and states", "anchors": ["mts/protocol/mtpresponder.cpp:MTPResponder::sendObjectInfoData", "mts/protocol/mtpresponder.cpp:MTPResponder::getObjectInfoReq", "mts/platform/storage/fsstorageplugin/fsstorageplugin.cpp:FSStoragePlugin::addItem", "mts/platform/storage/fsstorageplugin/fsstorageplugin.cpp:FSStoragePlugin::getObjectInfo", "mts/platform/storage/fsstorageplugin/fsstorageplugin.cpp:FSStoragePlugin::addToStorage", "mts/platform/storage/fsstorageplugin/fsstorageplugin.cpp:FSStoragePlugin::createFile"]}
{"id": "C84", "title": "What is uploaded is listed", "statement": "After the upload of a new file GetObjectHandles, for all objects or for those in the object's folder, lists exactly the objects there are, among them the new one.", "quantifier": "every upload into every storage state", "why_tests_cant": "all storage states", "anchors": ["mts/protocol/mtpresponder.cpp:MTPResponder::getObjectHandlesReq", "mts/platform/storage/fsstorageplugin/fsstorageplugin.cpp:FSStoragePlugin::getObjectHandles", "mts/platform/storage/fsstorageplugin/fsstorageplugin.cpp:FSStoragePlugin::addToStorage"]}
{"id": "C85", "title": "What is deleted is gone and nothing else is", "statement": "When the file system removes what it is asked to remove, DeleteObject of an object other than the root removes it and everything in it from the storage and from the disk, leaves every other object and what it holds as it was, and later requests about it are answered InvalidObjectHandle.", "quantifier": "every storage state and object", "why_tests_cant": "all trees", "anchors": ["mts/protocol/mtpresponder.cpp:MTPResponder::deleteObjectReq", "mts/platform/storage/fsstorageplugin/fsstorageplugin.cpp:FSStoragePlugin::deleteItem", "mts/platform/storage/fsstorageplugin/fsstorageplugin.cpp:FSStoragePlugin::deleteItemHelper", "mts/platform/storage/fsstorageplugin/fsstorageplugin.cpp:FSStoragePlugin::removeFromStorage"]}
{"id": "C86", "title": "Only uploads, edits, copies and deletions change objects", "statement": "Whatever else a host does, in any order and with any interruptions (moves and renames included), the same objects exist afterwards and hold the same bytes.", "quantifier": "every history of packets, cancellations, suspends, resets and notifications without creating, uploading, copying, editing or deleting", "why_tests_cant": "histories are unbounded", "anchors": ["mts/protocol/mtpresponder.cpp:MTPResponder::receiveContainer", "mts/protocol/mtpresponder.cpp:MTPResponder::moveObjectReq", "mts/protocol/mtpresponder.cpp:MTPResponder::setObjPropValueData", "mts/platform/storage/fsstorageplugin/fsstorageplugin.cpp:FSStoragePlugin::moveObject", "mts/platform/storage/fsstorageplugin/fsstorageplugin.cpp:FSStoragePlugin::adjustMovedItemsPath", "mts/platform/storage/fsstorageplugin/fsstorageplugin.cpp:FSStoragePlugin::setObjectPropertyValue"]}
{"id": "C87", "title": "Disk and objects agree", "statement": "After every history the files on disk are exactly those of the objects that are no folders, and the object tree is well formed.", "quantifier": "every history of packets, cancellations, suspends, resets and notifications, and every sequence of operating-system answers", "why_tests_cant": "histories and failure schedules are unbounded", "anchors": ["mts/protocol/mtpresponder.cpp:MTPResponder::receiveContainer", "mts/platform/storage/fsstorageplugin/fsstorageplugin.cpp:FSStoragePlugin::addItem", "mts/platform/storage/fsstorageplugin/fsstorageplugin.cpp:FSStoragePlugin::deleteItem", "mts/platform/storage/fsstorageplugin/fsstorageplugin.cpp:FSStoragePlugin::moveObject", "mts/platform/storage/fsstorageplugin/fsstorageplugin.cpp:FSStoragePlugin::writeData", "mts/platform/storage/fsstorageplugin/fsstorageplugin.cpp:FSStoragePlugin::writePartialData", "mts/platform/storage/fsstorageplugin/fsstorageplugin.cpp:FSStoragePlugin::truncateItem"]}
{"id": "C88", "title": "Objects that are not addressed survive", "statement": "An object that is not being uploaded or edited keeps existing, keeps its bytes and is told as before (but for name and folder) whatever else the host does: other uploads, edits, copies, deletions, cancellations, moves and renames; an uploaded file can still be downloaded byte for byte afterwards.", "quantifier": "every object, storage state and history of packets, cancellations, suspends, resets and notifications that does not delete, edit or re-announce the object, nor copy anything onto it or onto a folder it is in", "why_tests_cant": "histories are unbounded", "anchors": ["mts/protocol/mtpresponder.cpp:MTPResponder::receiveContainer", "mts/protocol/mtpresponder.cpp:MTPResponder::handleCancelTransaction", "mts/protocol/mtpresponder.cpp:MTPResponder::deleteObjectReq", "mts/platform/storage/fsstorageplugin/fsstorageplugin.cpp:FSStoragePlugin::deleteItem", "mts/platform/storage/fsstorageplugin/fsstorageplugin.cpp:FSStoragePlugin::writeData", "mts/platform/storage/fsstorageplugin/fsstorageplugin.cpp:FSStoragePlugin::addItem"]}
{"id": "C89", "title": "Parts of files are downloaded exactly", "statement": "GetPartialObject and GetPartialObject64 answer OK with exactly the requested range of the file's bytes (as far as there are any), GetPartialObject also with their number; a range from beyond the end is answered InvalidParameter and an unknown object InvalidObjectHandle, without data.", "quantifier": "every storage state, file, offset and length, and every part of every uploaded file", "why_tests_cant": "offsets, lengths and files are unbounded", "anchors": ["mts/protocol/mtpresponder.cpp:MTPResponder::getPartialObjectReq", "mts/protocol/mtpresponder.cpp:MTPResponder::getPartialObject64Req", "mts/protocol/mtpresponder.cpp:MTPResponder::getObjectCommon", "mts/protocol/mtpresponder.cpp:MTPResponder::sendObjectSegmented", "mts/platform/storage/fsstorageplugin/fsstorageplugin.cpp:FSStoragePlugin::readData"]}
{"id": "C90", "title": "Counting agrees with listing", "statement": "GetNumObjects answers OK with the number of objects of the storage, format and folder asked for, which is the length of the list GetObjectHandles sends for the same parameters.", "quantifier": "every storage state, format and folder", "why_tests_cant": "trees are unbounded", "anchors": ["mts/protocol/mtpresponder.cpp:MTPResponder::getNumObjectsReq", "mts/protocol/mtpresponder.cpp:MTPResponder::getObjectHandlesReq", "mts/platform/storage/storagefactory.cpp:StorageFactory::getObjectHandles", "mts/platform/storage/fsstorageplugin/fsstorageplugin.cpp:FSStoragePlugin::getObjectHandles"]}
{"id": "C91", "title": "Moving and renaming end to end", "statement": "MoveObject is answered OK exactly if the move is possible; then the object is in the new folder (and listed there and nowhere else), and nothing else a host can ask for is different; otherwise nothing is. SetObjectPropValue of the file name is all or nothing likewise.", "quantifier": "every storage state, object, folder and name", "why_tests_cant": "states and names are unbounded", "anchors": ["mts/protocol/mtpresponder.cpp:MTPResponder::moveObjectReq", "mts/protocol/mtpresponder.cpp:MTPResponder::setObjPropValueReq", "mts/protocol/mtpresponder.cpp:MTPResponder::setObjPropValueData", "mts/platform/storage/storagefactory.cpp:StorageFactory::moveObject", "mts/platform/storage/fsstorageplugin/fsstorageplugin.cpp:FSStoragePlugin::moveObject", "mts/platform/storage/fsstorageplugin/fsstorageplugin.cpp:FSStoragePlugin::setObjectPropertyValue"]}
{"id": "C92", "title": "Editing a file in place end to end", "statement": "Between BeginEditObject and EndEditObject, TruncateObject64 and SendPartialObject answered OK have exactly the requested effect on the file and the size told about it, and on nothing else; GetObject then sends the edited bytes; the file keeps its date.", "quantifier": "every storage state, file, size, offset, data and packetisation", "why_tests_cant": "files, offsets and packetisations are unbounded", "anchors": ["mts/protocol/mtpresponder.cpp:MTPResponder::beginEditObjectReq", "mts/protocol/mtpresponder.cpp:MTPResponder::endEditObjectReq", "mts/protocol/mtpresponder.cpp:MTPResponder::truncateObject64Req", "mts/protocol/mtpresponder.cpp:MTPResponder::sendPartialObject64Req", "mts/protocol/mtpresponder.cpp:MTPResponder::sendPartialObject64Data", "mts/platform/storage/fsstorageplugin/fsstorageplugin.cpp:FSStoragePlugin::truncateItem", "mts/platform/storage/fsstorageplugin/fsstorageplugin.cpp:FSStoragePlugin::writePartialData"]}
{"id": "C93", "title": "After the start, exactly the storage directory is shown", "statement": "After the start every entry of the storage directory that is allowed (not excluded, no forbidden symbolic link, and all folders above it likewise) is exactly one object with its format; nothing else is. Listing the storage or a folder gives those; GetObjectInfo tells name, folder, size and date found on disk; GetObject sends the bytes on disk, at once or after any history that does not address the object.", "quantifier": "every directory tree, exclusion list, link policy, later history of commands and cancellations", "why_tests_cant": "directory trees and histories are unbounded", "anchors": ["mts/platform/storage/fsstorageplugin/fsstorageplugin.cpp:FSStoragePlugin::enumerateStorage_worker", "mts/platform/storage/fsstorageplugin/fsstorageplugin.cpp:FSStoragePlugin::addToStorage", "mts/platform/storage/fsstorageplugin/fsstorageplugin.cpp:FSStoragePlugin::populateObjectInfo", "mts/protocol/mtpresponder.cpp:MTPResponder::getObjectReq", "mts/protocol/mtpresponder.cpp:MTPResponder::getObjectInfoReq", "mts/protocol/mtpresponder.cpp:MTPResponder::getObjectHandlesReq"]}
{"id": "C94", "title": "Giving up in the middle of an answer is safe", "statement": "When the host cancels, resets or is unplugged while an answer (download, listing, dataset) is being written, the rest is not sent, no response follows, objects and files are as if the request had completed, and the next command is served; when that happens during the response itself, or not at all, the answer is complete.", "quantifier": "every command without data from the host, every answer, every number and place of such events, every outcome of the writes", "why_tests_cant": "events arrive asynchronously during each write", "anchors": ["mts/transport/usb/mtptransporterusb.cpp:MTPTransporterUSB::sendData", "mts/protocol/mtpresponder.cpp:MTPResponder::sendObjectSegmented", "mts/protocol/mtpresponder.cpp:MTPResponder::sendContainer", "mts/protocol/mtpresponder.cpp:MTPResponder::sendResponse", "mts/protocol/mtpresponder.cpp:MTPResponder::handleCancelTransaction", "mts/protocol/mtpresponder.cpp:MTPResponder::closeSession"]}
{"id": "C95", "title": "Over USB the bytes are the conversation", "statement": "What a host sends over the bulk pipe (commands and data containers) has exactly the effect of the transactions it stands for, however the reads are cut and grouped; in particular a file uploaded over USB is the file downloaded over USB. File data is never taken for commands, and after a cancelled transfer the next command is served.", "quantifier": "every sequence of transactions, every cutting of the reads and grouping into pieces, every storage and contents", "why_tests_cant": "framing, buffering and the protocol interact; every cut and every interruption matters", "anchors": ["mts/transport/usb/mtptransporterusb.cpp:MTPTransporterUSB::processReceivedData", "mts/transport/usb/mtptransporterusb.cpp:MTPTransporterUSB::reset", "mts/transport/usb/mtptransporterusb.cpp:MTPTransporterUSB::stopRead", "mts/transport/usb/mtptransporterusb.cpp:MTPTransporterUSB::handleDataReady", "mts/protocol/mtpresponder.cpp:MTPResponder::receiveContainer", "mts/protocol/mtpresponder.cpp:MTPResponder::fetchObjectSize", "mts/protocol/mtpresponder.cpp:MTPResponder::handleCancelTransaction"]}
{"id": "C96", "title": "The device status tells the truth", "statement": "A host that asks for the device status gets four bytes saying OK or busy (other undefined control requests are stalled): busy whenever data or a response is being sent and exactly while a transaction is pending, OK right after every response; when told OK, the next command is taken. A cancel request cancels the transaction it names.", "quantifier": "every history of commands, data, events and control requests, every moment of asking, every storage", "why_tests_cant": "the status is read by another thread at any moment of any history", "anchors": ["mts/transport/usb/threadio.cpp:ControlReaderThread::setupRequest", "mts/transport/usb/threadio.cpp:ControlReaderThread::sendStatus", "mts/transport/usb/threadio.cpp:ControlReaderThread::setStatus", "mts/transport/usb/mtptransporterusb.cpp:MTPTransporterUSB::suspend", "mts/transport/usb/mtptransporterusb.cpp:MTPTransporterUSB::resume", "mts/transport/usb/mtptransporterusb.cpp:MTPTransporterUSB::sendDeviceOK", "mts/transport/usb/mtptransporterusb.cpp:MTPTransporterUSB::sendDeviceBusy", "mts/protocol/mtpresponder.cpp:MTPResponder::sendContainer", "mts/protocol/mtpresponder.cpp:MTPResponder::receiveContainer", "mts/protocol/mtpresponder.cpp:MTPResponder::handleCancelTransaction", "mts/protocol/mtpresponder.cpp:MTPResponder::handleDeviceReset", "mts/protocol/mtpresponder.cpp:MTPResponder::closeSession"]}
{"id": "C97", "title": "What is uploaded after SendObjectPropList is what is downloaded", "statement": "An object announced with a list of properties (SendObjectPropList: format and size in the command, file name in the list) whose bytes are then sent is, at any later time while nobody changes it, given back byte for byte by GetObject; its ObjectInfo has the name from the list and the format, size, storage and folder of the command. An announcement that is refused changes nothing; one that is accepted was for this storage, with a 32-bit size and only described properties of the new object, and leaves every other object as it was.", "quantifier": "every device state, list of properties, command, contents, division into packets and later history of reading operations", "why_tests_cant": "it ranges over all states, lists, packetisations and histories", "anchors": ["mts/protocol/mtpresponder.cpp:MTPResponder::sendObjectPropListReq", "mts/protocol/mtpresponder.cpp:MTPResponder::sendObjectPropListData", "mts/protocol/mtpresponder.cpp:MTPResponder::sendObjectData", "mts/platform/storage/fsstorageplugin/fsstorageplugin.cpp:FSStoragePlugin::addItem", "mts/platform/storage/fsstorageplugin/fsstorageplugin.cpp:FSStoragePlugin::writeData", "mts/platform/storage/fsstorageplugin/fsstorageplugin.cpp:FSStoragePlugin::readData", "mts/platform/storage/fsstorageplugin/fsstorageplugin.cpp:FSStoragePlugin::getObjectInfo"]}
{"id": "C98", "title": "An upload that is given up leaves nothing behind", "statement": "If the host announces a new object, begins to send its bytes and gives up (a cancel request, or the cable pulled) before the device has answered, then no response to that transaction follows, every object, its contents and its information are as before the announcement, nothing stays announced, and the next command is treated as by a device between two commands. While the system takes everything the device does not answer before all announced bytes are there.", "quantifier": "every device state, announcement (SendObjectInfo or SendObjectPropList), number, size and contents of the packets sent before giving up", "why_tests_cant": "it ranges over all states, announcements and points at which the host gives up", "anchors": ["mts/protocol/mtpresponder.cpp:MTPResponder::handleCancelTransaction", "mts/protocol/mtpresponder.cpp:MTPResponder::closeSession", "mts/protocol/mtpresponder.cpp:MTPResponder::sendObjectInfoData", "mts/protocol/mtpresponder.cpp:MTPResponder::sendObjectPropListData", "mts/protocol/mtpresponder.cpp:MTPResponder::sendObjectData", "mts/platform/storage/fsstorageplugin/fsstorageplugin.cpp:FSStoragePlugin::deleteItem", "mts/platform/storage/fsstorageplugin/fsstorageplugin.cpp:FSStoragePlugin::writeData"]}
{"id": "C99", "title": "A folder a host makes is there, empty, and can be filled", "statement": "If a host announces a folder whose name is free, in a folder that exists, the device answers OK with a new handle; the folder is told about as announced and listed exactly where it was made, nothing is listed in it, nothing is in the way of any name in it, and every other object is as before. A file uploaded into it is then the only object listed there and is downloaded byte for byte.", "quantifier": "every device state, announcement of a folder, and every later upload into that folder", "why_tests_cant": "it ranges over all object trees, names, datasets and packet divisions", "anchors": ["mts/protocol/mtpresponder.cpp:MTPResponder::sendObjectInfoData", "mts/platform/storage/fsstorageplugin/fsstorageplugin.cpp:FSStoragePlugin::addItem", "mts/platform/storage/fsstorageplugin/fsstorageplugin.cpp:FSStoragePlugin::addToStorage", "mts/platform/storage/fsstorageplugin/fsstorageplugin.cpp:FSStoragePlugin::createDirectory", "mts/platform/storage/fsstorageplugin/fsstorageplugin.cpp:FSStoragePlugin::getObjectHandles", "mts/platform/storage/fsstorageplugin/fsstorageplugin.cpp:FSStoragePlugin::getObjectInfo"]}
{"id": "C100", "title": "What the device says about a property of an object is what it says about the object", "statement": "After every history of requests, data, cancellations, resets and notifications: the storage, format, protection, size, file name, dates and parent told by GetObjPropValue are those told by GetObjectInfo, for every object there is, and the persistent identifier told is always the same. This holds although values are cached; ending an edit makes the device look again, and objects made later are not affected by anything said before.", "quantifier": "every history of a freshly started device, at any point of which cached values may also be dropped; every object and each of these properties; every later request", "why_tests_cant": "it ranges over all histories of all operations, with a cache in between that remembers what was asked", "anchors": ["mts/protocol/mtpresponder.cpp:MTPResponder::getObjPropValueReq", "mts/protocol/mtpresponder.cpp:MTPResponder::setObjPropValueData", "mts/protocol/mtpresponder.cpp:MTPResponder::setObjectPropListData", "mts/protocol/mtpresponder.cpp:MTPResponder::sendObjectData", "mts/protocol/mtpresponder.cpp:MTPResponder::endEditObjectReq", "mts/platform/storage/storagefactory.cpp:StorageFactory::getObjectPropertyValue", "mts/platform/storage/storagefactory.cpp:StorageFactory::setObjectPropertyValue", "mts/platform/storage/storagefactory.cpp:StorageFactory::deleteItem", "mts/platform/storage/storagefactory.cpp:StorageFactory::moveObject", "mts/platform/storage/fsstorageplugin/fsstorageplugin.cpp:FSStoragePlugin::getObjectPropertyValueFromStorage"]}
{"id": "C101", "title": "A copy is complete, is where it was asked for, and harms nothing", "statement": "CopyObject of a file or folder into a folder that has no entry of that name, where the system refuses nothing and there is room: answered OK with the handle of the copy; the object and everything in it exist twice then, the copies under new handles, in the same arrangement, with the same bytes, formats, sizes and names, files with the same modification date if it can be set; each copied file can be downloaded and is the original byte for byte; the copy is listed in that folder only; all that was there before is as it was. A copy from or to what does not exist, to another storage, or of a folder onto an entry of its name is refused and changes nothing. A copy never destroys another object, also if cancelled.", "quantifier": "every state of a consistent storage, every object (folders of any depth and content) and target folder, every request", "why_tests_cant": "it ranges over all trees, contents and places, and over everything the host may ask for afterwards", "anchors": ["mts/protocol/mtpresponder.cpp:MTPResponder::copyObjectReq", "mts/platform/storage/storagefactory.cpp:StorageFactory::copyObject", "mts/platform/storage/fsstorageplugin/fsstorageplugin.cpp:FSStoragePlugin::copyObject", "mts/platform/storage/fsstorageplugin/fsstorageplugin.cpp:FSStoragePlugin::addItem", "mts/platform/storage/storageplugin.cpp:StoragePlugin::copyData"]}
{"id": "C102", "title": "Changes made on the device reach a connected host, and do no harm", "statement": "While a host is connected, other programs create, write, delete, rename and move files and folders of the storage, in any order with whatever the host sends: objects and disk agree at every moment; objects that neither the host nor a program addresses keep their handle, bytes and information, so an uploaded file can be downloaded whole after any such history. What appears is announced by one ObjectAdded each and can be downloaded and asked about at once; what disappears is announced by ObjectRemoved and refused from then on; what is written is announced by ObjectInfoChanged if something about it is different, and its new bytes, size and date are told; what is moved or renamed keeps its handle and bytes, is announced, and its new name and folder are told.", "quantifier": "every state of a consistent storage and open session, every change and every sequence of changes and requests, every setting of the interest flags", "why_tests_cant": "it ranges over all interleavings of a host's requests with changes by other programs, and over all trees and contents", "anchors": ["mts/platform/storage/fsstorageplugin/fsstorageplugin.cpp:FSStoragePlugin::inotifyEventSlot", "mts/platform/storage/fsstorageplugin/fsstorageplugin.cpp:FSStoragePlugin::handleFSCreate", "mts/platform/storage/fsstorageplugin/fsstorageplugin.cpp:FSStoragePlugin::handleFSDelete", "mts/platform/storage/fsstorageplugin/fsstorageplugin.cpp:FSStoragePlugin::handleFSModify", "mts/platform/storage/fsstorageplugin/fsstorageplugin.cpp:FSStoragePlugin::handleFSMove", "mts/platform/storage/fsstorageplugin/fsstorageplugin.cpp:FSStoragePlugin::addToStorage", "mts/platform/storage/fsstorageplugin/fsstorageplugin.cpp:FSStoragePlugin::populateObjectInfo", "mts/protocol/mtpresponder.cpp:MTPResponder::dispatchEvent"]}
{"id": "C103", "title": "A storage among others behaves as if it were alone", "statement": "With several storages (memory and card, several directories), a host's requests about one of them are answered, byte for byte, as if it were the only one, its objects and files change exactly as if it were the only one, and the other storages are not touched. After the start and after any history of requests to any of them, each storage is in order and no two have an object handle in common. What was uploaded to one storage is downloaded from it unchanged, whatever the host did to another storage meanwhile.", "quantifier": "every number of storages up to 255, every content of each, every history of packets, cancellations and other events, every answer of the operating systems", "why_tests_cant": "it ranges over all histories of requests and over all numbers and contents of storages", "anchors": ["mts/platform/storage/storagefactory.cpp:StorageFactory::StorageFactory", "mts/platform/storage/storagefactory.cpp:StorageFactory::enumerateStorages", "mts/platform/storage/storagefactory.cpp:StorageFactory::storageOfHandle", "mts/platform/storage/storagefactory.cpp:StorageFactory::addItem", "mts/platform/storage/storagefactory.cpp:StorageFactory::deleteItem", "mts/platform/storage/storagefactory.cpp:StorageFactory::getObjectHandles", "mts/platform/storage/storagefactory.cpp:StorageFactory::checkHandle", "mts/platform/storage/storagefactory.cpp:StorageFactory::writeData", "mts/platform/storage/storagefactory.cpp:StorageFactory::readData", "mts/platform/storage/storagefactory.cpp:StorageFactory::copyObject", "mts/platform/storage/storagefactory.cpp:StorageFactory::moveObject", "mts/platform/storage/storagefactory.cpp:StorageFactory::getObjectHandle"]}
{"id": "C104", "title": "Property requests do not endanger files", "statement": "A device that keeps and caches object properties treats its objects and files as one that does not: between property requests it answers every request identically and leaves the same objects and files, whatever was asked, set or cached before. Asking for properties changes no object. A file uploaded is downloaded byte for byte after any later history that does not address it, with properties asked for and set (names included) in between.", "quantifier": "every state of the responder with its property cache; every history of requests, data, cancellations, resets and notifications; every upload and every interleaving of property requests with it and with the later download", "why_tests_cant": "The cache, the pending upload and the history combine without bound; a test tries a few interleavings.", "anchors": ["mts/platform/storage/storagefactory.cpp: getObjectPropertyValue, setObjectPropertyValue, deleteItem, moveObject, flushCachedObjectPropertyValues", "mts/platform/storage/fsstorageplugin/fsstorageplugin.cpp: setObjectPropertyValue, getObjectPropertyValueFromStorage", "mts/protocol/mtpresponder.cpp: getObjPropValueReq, getObjectPropListReq, setObjPropValueData, setObjectPropListData, sendObjectData"]}
{"id": "C105", "title": "CopyObject to another storage", "statement": "CopyObject of a file or folder to a free place of another storage, where nothing is refused, is answered OK with the handle of the copy; the object and everything in it then exist on both storages, with the same arrangement, bytes, information and dates (but for storage, folder and folder dates); copies and originals can be downloaded and the copy is listed where it was made; all that was on the destination is as before. No other storage is touched, whatever happens. Without enough space the answer is not OK, and after StoreFull the destination is as it was. A missing folder, or a folder of the same name in the way, is refused with nothing changed.", "quantifier": "every number of storages, every content of source and destination, every pair of storages, every object and target folder, every transport event during the copy (for the other storages)", "why_tests_cant": "The trees copied are unbounded in depth, size and number, and running out of space can happen at any object of them; tests copy one small tree.", "anchors": ["mts/platform/storage/storagefactory.cpp: copyObject", "mts/platform/storage/fsstorageplugin/fsstorageplugin.cpp: copyObject, addItem, deleteItem", "mts/platform/storage/storageplugin.cpp: copyData", "mts/protocol/mtpresponder.cpp: copyObjectReq"]}
{"id": "C106", "title": "MoveObject to another storage", "statement": "MoveObject of a file or folder to a free place of another storage, where nothing is refused, is answered OK; the object and everything in it are then on the destination, under the same handles, with the same arrangement, bytes, information and dates (but for storage, folder and folder dates), can be downloaded there, and are no longer where they were; everything else on both storages is as before, no other storage is touched, and handles are still unique. Whatever else stands in the way (names taken or unknown, creations or deletions refused) and whatever it is answered, nothing is lost while the device reads and writes what it is asked to: the rest of both storages is as before, and every moved file is on one of the two with all its bytes, on the destination if the answer is OK. A folder no storage has is refused with nothing changed.", "quantifier": "every number of storages, every content of source and destination, every pair of storages, every object and target folder, every pattern of refusals of the file system", "why_tests_cant": "The moved trees are unbounded in depth, size and number, the move can fail at any object of them, and losing a file only shows when it is looked for afterwards; tests move one small tree.", "anchors": ["mts/platform/storage/storagefactory.cpp: moveObject", "mts/platform/storage/fsstorageplugin/fsstorageplugin.cpp: moveObject, copyHandle, addToStorage, deleteItem", "mts/platform/storage/storageplugin.cpp: copyData", "mts/protocol/mtpresponder.cpp: moveObjectReq"]}
{"id": "C107", "title": "Setting properties, end to end", "statement": "SetObjectPropList, in any packets, on any device: either every element of the list could be set, each has been, in the order of the list, and the answer is a plain OK; or exactly the elements before the first one that cannot be set have been set, and the answer gives the reason for that one (unknown object, property not described for objects of its format, read-only, name not allowed) with its zero-based position. SetObjectPropValue: the value has been set and the answer is a plain OK, or the answer gives the reason and the device is as before. What has been set is told by GetObjPropValue; a file name that can be carried out is the object's name from then on, with its folder, contents and everything else as before; all other objects, and properties the list does not name, are as before.", "quantifier": "every device state, every list of elements with values of the standard's types, every split into packets", "why_tests_cant": "The lists and the values are unbounded, and every combination of settable, refused and overriding elements on any tree of objects has to be answered consistently; tests try single values.", "anchors": ["mts/protocol/mtpresponder.cpp: setObjPropValueReq, setObjPropValueData, setObjectPropListData", "mts/platform/storage/storagefactory.cpp: setObjectPropertyValue", "mts/platform/storage/fsstorageplugin/fsstorageplugin.cpp: setObjectPropertyValue, isFileNameValid"]}
{"id": "C108", "title": "Lists of properties, end to end", "statement": "After every history of a device, GetObjectPropList is answered with OK and a list the host can read: the objects asked about (one; those with a format, in a folder, at the root level or everywhere) come in turn, each once and no other. For one property every object has one element, with the property's standard type and the value that GetObjPropValue and the ObjectInfo dataset give for it; for all properties every object has exactly one element for each property its format supports and the device has a value for, but the thumbnail, with the value GetObjPropValue gives. Requests that cannot be carried out (depth, group, unknown object, not a folder) are answered with the reason and no element, and change nothing.", "quantifier": "every history of commands, data, cancellations, resets and notifications since start without operations that spoil the properties (C100); every request; every tree of objects", "why_tests_cant": "What the list says depends on everything cached by earlier requests about other objects; all histories, trees and requests have to agree.", "anchors": ["mts/protocol/mtpresponder.cpp: getObjectPropListReq, serializePropList", "mts/platform/storage/storagefactory.cpp: getObjectPropertyValue, getObjectHandles", "mts/platform/storage/fsstorageplugin/fsstorageplugin.cpp: getObjectPropertyValueFromStorage, getChildPropertyValues"]}
{"id": "C109", "title": "Object references, end to end", "statement": "A host sets the references of an object to a list of objects (SetObjectReferences). If all exist it is answered OK, and whatever happens afterwards that does not set that object's references again (any other commands and data, also references of other objects, closed and new sessions, resets, cancellations), as long as the object exists, GetObjectReferences gives exactly the objects of the list that still exist, in the order and as often as listed. An object whose references were never set has none. Setting references of or to something that does not exist is refused and changes nothing, and so is asking for those of something that does not exist.", "quantifier": "every history since start, every list of references (up to 2^27), every history afterwards", "why_tests_cant": "What is told depends on every deletion anywhere in the history between setting and asking.", "anchors": ["mts/protocol/mtpresponder.cpp: getObjReferencesReq, setObjReferencesData", "mts/platform/storage/storagefactory.cpp: getReferences, setReferences", "mts/platform/storage/fsstorageplugin/fsstorageplugin.cpp: getReferences, setReferences, removeInvalidObjectReferences"]}
{"id": "C110", "title": "Device properties, end to end", "statement": "A host sets the friendly name or the synchronisation partner (SetDevicePropValue): it is answered OK, and whatever happens afterwards that does not set it again, GetDevicePropValue gives the text set (cut as all transmitted texts are); if it is not blank this also holds after the device was started again. GetDevicePropDesc tells at any time the type, access, value at start and value now of each of the five properties; the battery level is the last one noticed. Properties the device does not have are refused by all three operations and nothing changes.", "quantifier": "every history since start, every text, every history afterwards, every later start", "why_tests_cant": "Ranges over all interleavings with other commands, sessions, resets and restarts.", "anchors": ["mts/protocol/mtpresponder.cpp: getDevicePropDescReq, getDevicePropValueReq, setDevicePropValueReq, setDevicePropValueData", "mts/platform/deviceinfo/mtpdeviceinfo.cpp: setDeviceFriendlyName, setSyncPartner, modifyDeviceInfoXml"]}
{"id": "C111", "title": "Information about device and storage, end to end", "statement": "GetDeviceInfo is answered OK with the same versions, operations, events, properties, formats and texts at any time: whatever happened since the start, in a session or not, whether the storages are read or not. In a session GetStorageIDs lists always the same storage and GetStorageInfo tells its type and texts, and the capacity and free space its file system has at that moment; if that cannot be found out the answer is GeneralError; other ids are answered InvalidStorageID, and without a session both are answered SessionNotOpen. None of these requests changes anything.", "quantifier": "every history since start, every state of the file system, every configuration that fits", "why_tests_cant": "Must hold after every history, with the file system changing at any time.", "anchors": ["mts/protocol/mtpresponder.cpp: getDeviceInfoReq, getStorageIDReq, getStorageInfoReq", "mts/platform/storage/fsstorageplugin/fsstorageplugin.cpp: storageInfo", "mts/platform/deviceinfo/mtpdeviceinfo.cpp: MtpDeviceInfo::MtpDeviceInfo"]}
{"id": "C112", "title": "Descriptions of object properties, end to end", "statement": "Asked which properties objects of a format have, and what each of them is, the device says the same at any time, whatever happened since its start: a list of codes without repetition; every code listed is described with the data type of the standard and a default and form of that type; every other code is answered InvalidObjectPropCode without data.", "quantifier": "every history since start, every format code, every property code", "why_tests_cant": "A host caches these answers for the whole connection; they must not depend on what happened before.", "anchors": ["mts/protocol/mtpresponder.cpp: getObjPropsSupportedReq, getObjPropDescReq", "mts/protocol/propertypod.cpp: PropertyPod"]}
{"id": "C113", "title": "Persistent identifiers across restarts, end to end", "statement": "A device that was started any number of times, ended properly each time, tells by GetObjPropValue a persistent unique identifier for every object. At any time two objects that exist have different identifiers. Over a restart, whatever happened before it ended: the identifier told after the restart for an object at a path equals the one told before for an object at a path exactly if the paths are the same. It does not matter what the directory holds when the device is started again, how its entries are ordered, or which handles the objects get.", "quantifier": "every number of restarts, every history between them (without moving objects or renaming folders), every directory found at each start, every two objects", "why_tests_cant": "Ranges over whole lives of the device: what is written depends on all that happened, what is read is combined with whatever the directory holds then.", "anchors": ["mts/platform/storage/fsstorageplugin/fsstorageplugin.cpp: populatePuoids, storePuoids, removeUnusedPuoids, addToStorage, requestNewPuoid, getObjectPropertyValueFromStorage", "mts/platform/storage/storagefactory.cpp: enumerateStorages", "mts/protocol/mtpresponder.cpp: getObjPropValueReq"]}
{"id": "C114", "title": "Object references across restarts, end to end", "statement": "A device tells a list of references of a file. Whatever happens afterwards that does not set that file's references again, then the device is ended and started again, on whatever directory: if there is a file at the path of that file, it refers to exactly those objects told before that existed when the device ended and whose paths are files when it is started, in the order and as often as told, even if all have other handles now; and whatever happens then that does not set its references again, those of them that still exist are told.", "quantifier": "every number of restarts, every history before and after, every list of references, every directory found", "why_tests_cant": "The handles in the lists are translated through the identifiers into new ones; ranges over whole lives of the device.", "anchors": ["mts/platform/storage/fsstorageplugin/fsstorageplugin.cpp: storeObjectReferences, populateObjectReferences, removeInvalidObjectReferences, getReferences", "mts/protocol/mtpresponder.cpp: getObjReferencesReq"]}
{"id": "C115", "title": "Files on the whole device", "statement": "A host announces an object and sends its data, both answered OK. Whatever is done with the device afterwards that does not address that object - every operation, including asking for and setting properties of objects and of the device, references, storage and device information; cancellations; battery and file-system changes - GetObject then sends exactly those bytes. More generally an object at rest survives every such history with its bytes and what is known about it, but for its name and folder; and as long as no property, reference or information operation is used the whole device answers byte for byte as its storage alone.", "quantifier": "every state of the device, every object and data, every history that does not address the object", "why_tests_cant": "The history is unbounded and mixes all operations the device has, with caches, references and properties as shared state between them.", "anchors": ["mts/protocol/mtpresponder.cpp: commandHandler, sendObjectInfoReq, sendObjectData, getObjectReq, setObjectPropListData, setObjReferencesReq, setDevicePropValueReq", "mts/platform/storage/fsstorageplugin/fsstorageplugin.cpp: addItem, writeData, readData, setReferences", "mts/platform/storage/storagefactory.cpp"]}
{"id": "C116", "title": "Files across restarts, end to end", "statement": "Every file that the storage directory is to show when the device is started - whatever the stored files of identifiers and references say - is exactly one object, and GetObject of it sends the file's bytes, first thing in the session and after any history of the whole device that does not address it. Hence: a host uploads an object, both transactions answered OK; after any further history that does not address it (it may be renamed) the device is ended and started again with the directory still holding the file; then one object lies at its path, and after any history of the new device not addressing that, GetObject sends exactly the bytes uploaded.", "quantifier": "every state, upload, history before the end, directory and stored files found at the start, history after it", "why_tests_cant": "Ranges over whole lives of the device with a restart in between; the handle is another one afterwards.", "anchors": ["mts/platform/storage/fsstorageplugin/fsstorageplugin.cpp: FSStoragePlugin, enumerateStorage_worker, addToStorage, populateObjectInfo, readData", "mts/protocol/mtpresponder.cpp: sendObjectInfoReq, sendObjectData, getObjectReq"]}
{"id": "C117", "title": "A restart changes nothing but the handles", "statement": "If the device is ended and started again and the storage directory then holds what the device had - the same folders and the same files with the same bytes - then every object is exactly one object again and every object was exactly one before, the storage root being the root; files are files with the same bytes, folders are folders; names are the same and objects are in the corresponding folders. A host that lists a folder after the restart is told, each once and in increasing order, the new handles of exactly the objects that were in that folder.", "quantifier": "every state before the end, every directory holding the same, every stored files of ids and references, every folder listed", "why_tests_cant": "Ranges over all directory trees, and relates two lives of the device in which handles differ.", "anchors": ["mts/platform/storage/fsstorageplugin/fsstorageplugin.cpp: FSStoragePlugin, enumerateStorage_worker, addToStorage, addItem, getObjectHandles", "mts/protocol/mtpresponder.cpp: getObjectHandlesReq"]}
{"id": "C118", "title": "Operations on objects, on the whole device", "statement": "Whatever a request without data, or an announcement of an object, is answered by the storage alone, and whatever it does to objects and files there, it is answered by and does on the whole device with its cache, references and properties. So on the whole device: deleting removes the object with everything in it from tree and disk and leaves all else; moving is answered OK exactly if possible and then only changes the folder; copying makes a copy of everything, downloadable byte for byte; parts of a file are sent exactly; editing begins, ends and truncates as asked; listing and counting tell the objects that meet the request; a folder announced is made; requests for an unknown object are refused and change nothing.", "quantifier": "every state of the device (whatever is cached, referenced or set), every request", "why_tests_cant": "The state of the device is arbitrary: any cache contents, references, properties and history.", "anchors": ["mts/protocol/mtpresponder.cpp: commandHandler, deleteObjectReq, moveObjectReq, copyObjectReq, getPartialObjectReq, getObjectHandlesReq, getNumObjectsReq, sendObjectInfoData", "mts/platform/storage/storagefactory.cpp", "mts/platform/storage/fsstorageplugin/fsstorageplugin.cpp"]}
