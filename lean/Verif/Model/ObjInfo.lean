import Verif.Model.Codec
/-!
The object-info dataset: mts/common/mtptypes.h `MTPObjectInfo`,
mtptxcontainer.cpp:275-287 and mtprxcontainer.cpp:232-250.
-/
namespace Mtp

/-- `MTPObjectInfo` (mts/common/mtptypes.h); `size` is `mtpObjectCompressedSize` (quint64). -/
structure ObjInfo where
  storageId : Nat
  format : Nat
  protection : Nat
  size : Nat
  thumbFormat : Nat
  thumbSize : Nat
  thumbWidth : Nat
  thumbHeight : Nat
  imageWidth : Nat
  imageHeight : Nat
  bitDepth : Nat
  parent : Nat
  assocType : Nat
  assocDesc : Nat
  sequence : Nat
  fileName : QStr
  captureDate : QStr
  modDate : QStr
  keywords : QStr
  deriving DecidableEq, Repr

/-- mtptxcontainer.cpp:275-287 `operator<<(MTPObjectInfo)`; the size is cast to `quint32`. -/
def Tx.putObjInfo (t : Tx) (o : ObjInfo) : Res Tx := do
  let t ← t.putInt 4 o.storageId
  let t ← t.putInt 2 o.format
  let t ← t.putInt 2 o.protection
  let t ← t.putInt 4 (u32 o.size)
  let t ← t.putInt 2 o.thumbFormat
  let t ← t.putInt 4 o.thumbSize
  let t ← t.putInt 4 o.thumbWidth
  let t ← t.putInt 4 o.thumbHeight
  let t ← t.putInt 4 o.imageWidth
  let t ← t.putInt 4 o.imageHeight
  let t ← t.putInt 4 o.bitDepth
  let t ← t.putInt 4 o.parent
  let t ← t.putInt 2 o.assocType
  let t ← t.putInt 4 o.assocDesc
  let t ← t.putInt 4 o.sequence
  let t ← t.putStr o.fileName
  let t ← t.putStr o.captureDate
  let t ← t.putStr o.modDate
  t.putStr o.keywords

/-- mtprxcontainer.cpp:232-250 `operator>>(MTPObjectInfo)`. -/
def Rx.getObjInfo (r : Rx) : Res (ObjInfo × Rx) := do
  let (storageId, r) ← r.getInt 4
  let (format, r) ← r.getInt 2
  let (protection, r) ← r.getInt 2
  let (size, r) ← r.getInt 4
  let (thumbFormat, r) ← r.getInt 2
  let (thumbSize, r) ← r.getInt 4
  let (thumbWidth, r) ← r.getInt 4
  let (thumbHeight, r) ← r.getInt 4
  let (imageWidth, r) ← r.getInt 4
  let (imageHeight, r) ← r.getInt 4
  let (bitDepth, r) ← r.getInt 4
  let (parent, r) ← r.getInt 4
  let (assocType, r) ← r.getInt 2
  let (assocDesc, r) ← r.getInt 4
  let (sequence, r) ← r.getInt 4
  let (fileName, r) ← r.getStr
  let (captureDate, r) ← r.getStr
  let (modDate, r) ← r.getStr
  let (keywords, r) ← r.getStr
  return ({ storageId := storageId, format := format, protection := protection, size := size,
            thumbFormat := thumbFormat, thumbSize := thumbSize, thumbWidth := thumbWidth, thumbHeight := thumbHeight,
            imageWidth := imageWidth, imageHeight := imageHeight, bitDepth := bitDepth, parent := parent,
            assocType := assocType, assocDesc := assocDesc, sequence := sequence,
            fileName := fileName, captureDate := captureDate, modDate := modDate, keywords := keywords }, r)

end Mtp
