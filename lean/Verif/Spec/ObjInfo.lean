import Verif.Spec.Wire
import Verif.Model.ObjInfo
/-! Object-info dataset as the PTP/MTP standard lays it out. -/
namespace Spec
open Mtp (Val ObjInfo)

/-- Field order and widths of the dataset. -/
def objInfoVals (o : ObjInfo) : List Val :=
  [.int 4 o.storageId,
   .int 2 o.format,
   .int 2 o.protection,
   .int 4 (o.size % 2 ^ 32),
   .int 2 o.thumbFormat,
   .int 4 o.thumbSize,
   .int 4 o.thumbWidth,
   .int 4 o.thumbHeight,
   .int 4 o.imageWidth,
   .int 4 o.imageHeight,
   .int 4 o.bitDepth,
   .int 4 o.parent,
   .int 2 o.assocType,
   .int 4 o.assocDesc,
   .int 4 o.sequence,
   .str o.fileName,
   .str o.captureDate,
   .str o.modDate,
   .str o.keywords]

/-- Every field fits its C++ type. -/
def ObjInfoFits (o : ObjInfo) : Prop :=
  o.storageId < 256 ^ 4 ∧
  o.format < 256 ^ 2 ∧
  o.protection < 256 ^ 2 ∧
  o.size < 256 ^ 8 ∧
  o.thumbFormat < 256 ^ 2 ∧
  o.thumbSize < 256 ^ 4 ∧
  o.thumbWidth < 256 ^ 4 ∧
  o.thumbHeight < 256 ^ 4 ∧
  o.imageWidth < 256 ^ 4 ∧
  o.imageHeight < 256 ^ 4 ∧
  o.bitDepth < 256 ^ 4 ∧
  o.parent < 256 ^ 4 ∧
  o.assocType < 256 ^ 2 ∧
  o.assocDesc < 256 ^ 4 ∧
  o.sequence < 256 ^ 4

/-- What the receiver of an object-info dataset sees. -/
def objInfoReceived (o : ObjInfo) : ObjInfo :=
  { o with size := o.size % 2 ^ 32,
           fileName := bom (cut o.fileName),
           captureDate := bom (cut o.captureDate),
           modDate := bom (cut o.modDate),
           keywords := bom (cut o.keywords) }

end Spec
