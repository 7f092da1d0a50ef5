import Verif.Model.Responder
/-!
The control endpoint: mts/transport/usb/threadio.cpp:186-308 and the status slots of mts/transport/usb/mtptransporterusb.cpp:513-538.
Not here: the FunctionFS system calls, short writes of the four status bytes (they are repeated, threadio.cpp:223-230), bind/enable
events (`Ev.cleanup` stands for disable, `Model/Responder.lean`).
-/
namespace Mtp

variable {D : Type}

/-- threadio.h `enum mtpfs_status`. -/
inductive DevStatus where
  | ok | busy | txCancel
  deriving DecidableEq, Repr

/-- ptp.h:43-45. -/
def DevStatus.code : DevStatus → Nat
  | .ok => 0x2001
  | .busy => 0x2019
  | .txCancel => 0x201F

/-- threadio.cpp:67-81 `status_data`, of which `sendStatus` (215-236) sends four bytes: two little-endian 16 bit numbers. -/
def DevStatus.bytes (s : DevStatus) : List UInt8 :=
  [4, 0, UInt8.ofNat (s.code % 256), UInt8.ofNat (s.code / 256)]

/-- The signals that set the status (mtptransporterusb.cpp:525-538). `deviceStatusTxCancelled` is never emitted. -/
def Out.status : Out → Option DevStatus
  | .statusOk => some .ok
  | .statusBusy => some .busy
  | _ => none

/-- threadio.cpp:238-243 `setStatus`: `m_status` after the responder has sent `out`. mtpresponder.cpp:172 sets OK at the start
(a request that comes even earlier reads an uninitialised `m_status`; that is left out). -/
def deviceStatus (out : List Out) : DevStatus := out.foldl (fun s o => o.status.getD s) .ok

/-- A setup packet (`struct usb_ctrlrequest`) with the data that follows it. -/
structure Setup where
  type : Nat
  request : Nat
  value : Nat := 0
  index : Nat := 0
  length : Nat := 0
  data : List UInt8 := []

/-- What a setup packet does. -/
inductive CtlOut where
  | answer (b : List UInt8)
  | stall (dirIn : Bool)
  | signal (e : Rsp.Ev)
  deriving DecidableEq

/-- threadio.cpp:272-308 `setupRequest`. The data of a cancel request is not read. -/
def setupRequest (s : DevStatus) (u : Setup) : CtlOut :=
  if u.request = 0x67 then
    if u.type = 0xa1 then .answer s.bytes else .stall (u.type / 128 % 2 = 1)
  else if u.request = 0x64 then .signal .cancel
  else if u.request = 0x66 then .signal .deviceReset
  else .stall (u.type / 128 % 2 = 1)

namespace Rsp

/-- mtptransporterusb.cpp:513-517 `suspend`. -/
def usbSuspend (r : Rsp D) : Rsp D := (r.emit .statusBusy).handleSuspend

/-- mtptransporterusb.cpp:519-523 `resume`. -/
def usbResume (r : Rsp D) : Rsp D := r.handleResume.emit .statusOk

/-- A control request reaches the responder (mtptransporterusb.cpp:163-174, mtpresponder.cpp:168-169); status requests and stalls
do not. -/
def control (dv : Dev D) (r : Rsp D) (u : Setup) : Rsp D :=
  match setupRequest (deviceStatus r.out) u with
  | .signal e => r.handleEv dv e
  | _ => r

end Rsp
end Mtp
