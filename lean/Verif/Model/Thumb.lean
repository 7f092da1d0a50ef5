import Verif.Model.Cache
/-!
Thumbnail requests (fsstorageplugin/thumbnailer.cpp).

Texts are lists of characters. The D-Bus thumbnailer itself is not modelled: its replies are inputs. The order of
Qt's hash is irrelevant here (only membership and lookup are used), so hashes are lists with `AMap.get`.
-/
namespace Mtp

/-- A path, URI or thumbnail path. -/
abbrev Txt := List Char

/-- thumbnailer.cpp:56 `IRI_PREFIX`. -/
def iriPrefix : Txt := "file://".toList

/-- thumbnailer.cpp:270: the file path is appended as it is, without escaping. -/
def fileIri (p : Txt) : Txt := iriPrefix ++ p

/-- Value of a hexadecimal digit. -/
def hexVal (c : Char) : Option Nat :=
  if '0' ≤ c ∧ c ≤ '9' then some (c.toNat - 48)
  else if 'a' ≤ c ∧ c ≤ 'f' then some (c.toNat - 87)
  else if 'A' ≤ c ∧ c ≤ 'F' then some (c.toNat - 55)
  else none

/-- Percent decoding of a URI component (QUrl, FullyDecoded). Simplified: bytes above 127 are not joined as UTF-8. -/
def pctDecode : Txt → Txt
  | '%' :: a :: b :: r =>
    match hexVal a, hexVal b with
    | some x, some y => Char.ofNat (16 * x + y) :: pctDecode r
    | _, _ => '%' :: pctDecode (a :: b :: r)
  | c :: r => c :: pctDecode r
  | [] => []

/-- thumbnailer.cpp:146 `QUrl(uri).path()` for a "file://" URI with empty authority: up to the query or fragment, percent
decoded. -/
def urlPath (u : Txt) : Txt :=
  pctDecode ((u.drop iriPrefix.length).takeWhile (fun c => c ≠ '#' && c ≠ '?'))

/-- thumbnailer.h:117-142: members of `Thumbnailer`. `sent` records the `Fetch` calls made, oldest first, and `ready` the
`thumbnailReady` signals. -/
structure Thumb where
  enabled : Bool := false
  suspended : Bool := false
  timer : Bool := false
  requested : List Txt := []
  queue : List Txt := []
  paths : List (Txt × Txt) := []
  sent : List (List Txt) := []
  ready : List Txt := []

/-- thumbnailer.cpp:66 `THUMBNAIL_MAX_IMAGES_PER_REQUEST`. -/
def maxBatch : Nat := 128

namespace Thumb

/-- thumbnailer.cpp:242-259 `scheduleThumbnailing`: the timer runs iff thumbnailing is enabled, not suspended and
something is queued (intervals are not modelled). -/
def schedule (t : Thumb) : Thumb :=
  { t with timer := t.enabled && !t.suspended && !t.queue.isEmpty }

/-- thumbnailer.cpp:218-225 `enableThumbnailing`. -/
def enable (t : Thumb) : Thumb := if t.enabled then t else schedule { t with enabled := true }

/-- thumbnailer.cpp:227-233 `suspendThumbnailing`, run on `commandPending`. -/
def suspend (t : Thumb) : Thumb := if t.suspended then t else schedule { t with suspended := true }

/-- thumbnailer.cpp:235-240 `resumeThumbnailing`, run on `commandFinished`. -/
def resume (t : Thumb) : Thumb := if t.suspended then schedule { t with suspended := false } else t

/-- thumbnailer.cpp:183-216 `thumbnailDelayTimeout`. -/
def timeout (t : Thumb) : Thumb :=
  if t.queue.isEmpty then { t with timer := false }
  else { t with queue := t.queue.drop maxBatch, sent := t.sent ++ [t.queue.take maxBatch] }

/-- thumbnailer.cpp:261-284 `requestThumbnail`, new state. -/
def request (t : Thumb) (p : Txt) : Thumb :=
  match AMap.get t.paths p with
  | some _ => t
  | none =>
    if fileIri p ∈ t.requested then t
    else schedule { t with requested := fileIri p :: t.requested, queue := t.queue ++ [fileIri p] }

/-- thumbnailer.cpp:261-284 `requestThumbnail`, result: the thumbnail's path or the empty text. -/
def reply (t : Thumb) (p : Txt) : Txt := (AMap.get t.paths p).getD []

/-- thumbnailer.cpp:129-151 `slotReady`, one element. -/
def readyOne (t : Thumb) (e : Txt × Txt) : Thumb :=
  if e.1 ∈ t.requested then
    { t with requested := t.requested.filter (· ≠ e.1), paths := AMap.insert t.paths (urlPath e.1) e.2,
             ready := t.ready ++ [urlPath e.1] }
  else t

/-- thumbnailer.cpp:129-151 `slotReady`. -/
def readyAll (t : Thumb) (es : List (Txt × Txt)) : Thumb := es.foldl readyOne t

end Thumb

/-- What can happen to the thumbnailer. `tick` is the main loop reaching the timer: it has an effect only when the timer
is running. Failures (thumbnailer.cpp:160-181) only log. -/
inductive ThOp where
  | enable | pending | finished | tick | request (p : Txt) | ready (es : List (Txt × Txt)) | failed (us : List Txt)

/-- One input. -/
def Thumb.step (t : Thumb) : ThOp → Thumb
  | .enable => t.enable
  | .pending => t.suspend
  | .finished => t.resume
  | .tick => if t.timer then t.timeout else t
  | .request p => t.request p
  | .ready es => t.readyAll es
  | .failed _ => t

/-- A history from the constructor (thumbnailer.cpp:95-127). -/
def Thumb.run (h : List ThOp) : Thumb := h.foldl Thumb.step {}

end Mtp
