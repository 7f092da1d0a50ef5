import Verif.Model.PropDesc
import Verif.Model.Factory
/-!
The object property tables: mts/protocol/propertypod.cpp, the format categories of
mts/platform/deviceinfo/mtpdeviceinfo.cpp, and the two requests that show them to the host
(mts/protocol/mtpresponder.cpp:1730-1808).
-/
namespace Mtp

/-- `MTPObjectFormatCategory`; `UNSUPPORTED` is never returned (mtpdeviceinfo.cpp:647-664). -/
inductive Cat where
  | unsupported | audio | video | image | common
  deriving DecidableEq, Repr

/-- What the device information provider says (platform/deviceinfo/mtpdeviceinfo.h:151-350). -/
structure DevCaps where
  commonFormats : List Nat
  audioFormats : List Nat
  videoFormats : List Nat
  imageFormats : List Nat
  audioChannels : List Nat
  videoChannels : List Nat
  codecs : List Nat
  audioBit : Nat × Nat
  videoBit : Nat × Nat
  fps : Nat × Nat
  imageWidth : Nat × Nat
  imageHeight : Nat × Nat
  videoWidth : Nat × Nat
  videoHeight : Nat × Nat

/-- mtpdeviceinfo.cpp:647-664 `getFormatCodeCategory`. -/
def DevCaps.category (c : DevCaps) (fmt : Nat) : Cat :=
  if fmt ∈ c.commonFormats then .common
  else if fmt ∈ c.audioFormats then .audio
  else if fmt ∈ c.videoFormats then .video
  else if fmt ∈ c.imageFormats then .image
  else .common

/-- A table row before its form is filled in: code, data type, get/set, default, form flag
(propertypod.cpp:45-411; the group code is 0 and the form field empty in every row). -/
structure PodRow where
  code : Nat
  dtype : Nat
  getSet : Bool
  defVal : Val
  flag : Nat
  deriving DecidableEq

/-- `QVariant(0)`: an int. -/
def qzero : Val := .int 4 0
/-- `QVariant(QString())`. -/
def qempty : Val := .str []

/-- propertypod.cpp:45-112 `m_commonPropDesc`. -/
def commonRows : List PodRow :=
  [⟨0xDC01, 0x0006, false, qzero, 0⟩,   -- StorageID
   ⟨0xDC02, 0x0004, false, qzero, 0⟩,   -- Obj_Format
   ⟨0xDC03, 0x0004, false, qzero, 2⟩,   -- Protection_Status
   ⟨0xDC04, 0x0008, false, qzero, 0⟩,   -- Obj_Size
   ⟨0xDC07, 0xFFFF, true, qempty, 0⟩,   -- Obj_File_Name
   ⟨0xDC08, 0xFFFF, false, qempty, 3⟩,  -- Date_Created
   ⟨0xDC09, 0xFFFF, false, qempty, 3⟩,  -- Date_Modified
   ⟨0xDC0B, 0x0006, false, qzero, 0⟩,   -- Parent_Obj
   ⟨0xDC41, 0x000A, false, qzero, 0⟩,   -- Persistent_Unique_ObjId
   ⟨0xDC44, 0xFFFF, true, qempty, 0⟩,   -- Name
   ⟨0xDC4F, 0x0002, false, qzero, 2⟩]   -- Non_Consumable

/-- propertypod.cpp:114-151 `m_imagePropDesc`. -/
def imageRows : List PodRow :=
  [⟨0xDC87, 0x0006, false, qzero, 1⟩,   -- Width
   ⟨0xDC88, 0x0006, false, qzero, 1⟩,   -- Height
   ⟨0xDC81, 0x0004, false, qzero, 2⟩,   -- Rep_Sample_Format
   ⟨0xDC84, 0x0006, false, qzero, 1⟩,   -- Rep_Sample_Width
   ⟨0xDC83, 0x0006, false, qzero, 1⟩,   -- Rep_Sample_Height
   ⟨0xDC86, 0x4002, false, qzero, 6⟩]   -- Rep_Sample_Data

/-- propertypod.cpp:153-260 `m_audioPropDesc`, without the rows under `#if 0`. -/
def audioRows : List PodRow :=
  [⟨0xDC46, 0xFFFF, true, qempty, 0⟩,   -- Artist
   ⟨0xDC9A, 0xFFFF, true, qempty, 0⟩,   -- Album_Name
   ⟨0xDC8B, 0x0004, true, qzero, 0⟩,    -- Track
   ⟨0xDC8C, 0xFFFF, true, qzero, 0⟩,    -- Genre
   ⟨0xDC91, 0x0006, true, qzero, 0⟩,    -- Use_Count
   ⟨0xDC89, 0x0006, true, qzero, 0⟩,    -- Duration
   ⟨0xDE92, 0x0004, true, qzero, 2⟩,    -- Bitrate_Type
   ⟨0xDE93, 0x0006, true, qzero, 2⟩,    -- Sample_Rate
   ⟨0xDE94, 0x0004, true, qzero, 2⟩,    -- Nbr_Of_Channels
   ⟨0xDE99, 0x0006, true, qzero, 2⟩,    -- Audio_WAVE_Codec
   ⟨0xDE9A, 0x0006, true, qzero, 1⟩,    -- Audio_BitRate
   ⟨0xDC9D, 0x0004, true, qzero, 2⟩]    -- DRM_Status

/-- propertypod.cpp:262-415 `m_videoPropDesc`, without the rows under `#if 0`. -/
def videoRows : List PodRow :=
  [⟨0xDE93, 0x0006, true, qzero, 2⟩,    -- Sample_Rate
   ⟨0xDE9B, 0x0006, true, qzero, 2⟩,    -- Video_FourCC_Codec
   ⟨0xDE9C, 0x0006, true, qzero, 1⟩,    -- Video_BitRate
   ⟨0xDE9D, 0x0006, true, qzero, 1⟩,    -- Frames_Per_Thousand_Secs
   ⟨0xDC8C, 0xFFFF, true, qzero, 0⟩,    -- Genre
   ⟨0xDE94, 0x0004, true, qzero, 2⟩,    -- Nbr_Of_Channels
   ⟨0xDE99, 0x0006, true, qzero, 2⟩,    -- Audio_WAVE_Codec
   ⟨0xDE9A, 0x0006, true, qzero, 1⟩,    -- Audio_BitRate
   ⟨0xDC87, 0x0006, true, qzero, 1⟩,    -- Width
   ⟨0xDC88, 0x0006, true, qzero, 1⟩,    -- Height
   ⟨0xDC46, 0xFFFF, true, qempty, 0⟩,   -- Artist
   ⟨0xDC9A, 0xFFFF, true, qempty, 0⟩,   -- Album_Name
   ⟨0xDC91, 0x0006, true, qzero, 0⟩,    -- Use_Count
   ⟨0xDC89, 0x0006, true, qzero, 0⟩,    -- Duration
   ⟨0xDC8B, 0x0004, true, qzero, 0⟩,    -- Track
   ⟨0xDC9D, 0x0004, true, qzero, 2⟩]    -- DRM_Status

/-- `MtpEnumForm(v.size(), v)`; the count is a `quint16`. -/
def enumForm (w : Nat) (vs : List Nat) : Form := .enum (u16 vs.length) (vs.map (.int w))

/-- `MtpRangeForm(min, max, QVariant(1))`. -/
def rangeForm (r : Nat × Nat) : Form := .range (.int 4 r.1) (.int 4 r.2) (.int 4 1)

/-- propertypod.cpp:659-756 `populateEnumDesc`; literals and enumerators are ints. The cases without a row
(Encoding_Profile, Scan_Type) are left out. -/
def enumOf (c : DevCaps) (cat : Cat) (code : Nat) : Form :=
  if code = 0xDC9D then enumForm 4 [0, 1]
  else if code = 0xDC03 then enumForm 4 [0, 1, 0x8002, 0x8003]
  else if code = 0xDC4F then enumForm 4 [0, 1]
  else if code = 0xDC81 then enumForm 4 [0x3808, 0x380B]
  else if code = 0xDE92 then enumForm 4 [0, 1, 2, 3]
  else if code = 0xDE93 then enumForm 4 [8000, 11025, 22050, 44000, 44100, 48000]
  else if code = 0xDE94 then
    enumForm 2 (if cat = .audio then c.audioChannels else if cat = .video then c.videoChannels else [])
  else if code = 0xDE99 then enumForm 4 c.codecs
  else if code = 0xDE9B then enumForm 4 [0x44495643, 0x454C524D, 0x3153534D, 0x31564D57, 0x33564D57, 0x34363248]
  else .none

/-- propertypod.cpp:808-830 `isTechObjProp`. -/
def isTech (code : Nat) : Bool :=
  [0xDE99, 0xDE9A, 0xDE9C, 0xDE9E, 0xDE9D, 0xDE94, 0xDEA1, 0xDC87, 0xDC88, 0xDC84, 0xDC83].contains code

/-- propertypod.cpp:758-806 `populateTechObjPropDesc`, without KeyFrame_Distance, which has no row. -/
def rangeOf (c : DevCaps) (cat : Cat) (code : Nat) : Form :=
  if code = 0xDE9A then rangeForm c.audioBit
  else if code = 0xDE9C then rangeForm c.videoBit
  else if code = 0xDE9D then rangeForm c.fps
  else if code = 0xDC87 ∨ code = 0xDC84 then
    rangeForm (if cat = .image then c.imageWidth else c.videoWidth)
  else if code = 0xDC88 ∨ code = 0xDC83 then
    rangeForm (if cat = .image then c.imageHeight else c.videoHeight)
  else .none

/-- propertypod.cpp:459-500: the form given to a row by the constructor; the technical properties of videos are filled in
with the audio category. -/
def formOf (c : DevCaps) (cat : Cat) (r : PodRow) : Form :=
  if r.flag = 2 then enumOf c cat r.code
  else if cat ≠ .common ∧ isTech r.code then rangeOf c (if cat = .video then .audio else cat) r.code
  else .none

/-- A finished description. -/
def podDesc (c : DevCaps) (cat : Cat) (r : PodRow) : ObjPropDesc :=
  { code := r.code, dtype := r.dtype, getSet := r.getSet, defVal := r.defVal, group := 0,
    flag := r.flag, form := formOf c cat r }

/-- `QMap::insert`: sorted by key, the last value inserted for a key wins. -/
def qmapInsert (k : Nat) (d : ObjPropDesc) : List (Nat × ObjPropDesc) → List (Nat × ObjPropDesc)
  | [] => [(k, d)]
  | (k', d') :: r =>
    if k < k' then (k, d) :: (k', d') :: r
    else if k = k' then (k, d) :: r
    else (k', d') :: qmapInsert k d r

/-- `QMap::value(key, 0)`. -/
def qmapValue (k : Nat) : List (Nat × ObjPropDesc) → Option ObjPropDesc
  | [] => none
  | (k', d') :: r => if k = k' then some d' else qmapValue k r

/-- The rows of a category (propertypod.cpp:464-500). -/
def rowsOf : Cat → List PodRow
  | .common => commonRows
  | .image => imageRows
  | .audio => audioRows
  | .video => videoRows
  | .unsupported => []

/-- propertypod.cpp:464-500: `m_objPropMapCommon`, `…Image`, `…Audio`, `…Video`. -/
def podMap (c : DevCaps) (cat : Cat) : List (Nat × ObjPropDesc) :=
  (rowsOf cat).foldl (fun m r => qmapInsert r.code (podDesc c cat r) m) []

/-- propertypod.cpp:551-583 `getObjectPropsSupportedByType` (the default case is unreachable). -/
def propsSupported (c : DevCaps) (cat : Cat) : List Nat :=
  match cat with
  | .common => (podMap c .common).map (·.1)
  | .image => (podMap c .common).map (·.1) ++ (podMap c .image).map (·.1)
  | .audio => (podMap c .common).map (·.1) ++ (podMap c .audio).map (·.1)
  | .video => (podMap c .common).map (·.1) ++ (podMap c .video).map (·.1)
  | .unsupported => (podMap c .common).map (·.1)

/-- propertypod.cpp:635-656 `getObjectPropDesc`. -/
def objectPropDesc (c : DevCaps) (cat : Cat) (code : Nat) : Resp × Option ObjPropDesc :=
  match qmapValue code (podMap c .common) with
  | some d => (.ok, some d)
  | none =>
    let d := match cat with
      | .image => qmapValue code (podMap c .image)
      | .audio => qmapValue code (podMap c .audio)
      | .video => qmapValue code (podMap c .video)
      | _ => none
    (if d.isSome then .ok else .invalidObjectPropCode, d)

/-- mtpresponder.cpp:1730-1767 `getObjPropsSupportedReq` after the transaction check: the bytes of the data phase and the
response. The parameter is cut to a `quint16` on the call of `getFormatCodeCategory`. -/
def getObjPropsSupported (c : DevCaps) (tid p0 : Nat) : Res (Option (List UInt8) × Resp) := do
  let ps := propsSupported c (c.category (u16 p0))
  let t ← Tx.new 2 0x9801 tid (ps.length * 2 + 4)
  let t ← t.putArr 2 ps
  let (bytes, _) ← t.buffer
  return (some bytes, .ok)

/-- mtpresponder.cpp:1769-1808 `getObjPropDescReq` after the transaction check. -/
def getObjPropDesc (c : DevCaps) (tid p0 p1 : Nat) : Res (Option (List UInt8) × Resp) := do
  let cat := c.category (u16 p1)
  if cat = .unsupported then return (none, .invalidObjectPropFormat)
  match objectPropDesc c cat (u16 p0) with
  | (.ok, some d) =>
    let t ← Tx.new 2 0x9802 tid 72      -- sizeof(MtpObjPropDesc)
    let t ← t.putObjPropDesc d
    let (bytes, _) ← t.buffer
    return (some bytes, .ok)
  | (r, _) => return (none, r)

end Mtp
