import Verif.Model.Control
/-! Specification vocabulary for the device status. -/
namespace Spec
open Mtp

variable {D : Type}

/-- A GetDeviceStatus request: class request to the interface, device to host (bmRequestType 10100001b), bRequest 0x67. -/
def StatusRequest (u : Setup) : Prop := u.type = 0xa1 ∧ u.request = 0x67

/-- A host that asks for the status after the device has sent `out` is told 'device busy': length 4, code 0x2019. -/
def SaysBusy (out : List Out) : Prop :=
  ∀ u, StatusRequest u → setupRequest (deviceStatus out) u = .answer [0x04, 0x00, 0x19, 0x20]

/-- … is told 'OK': length 4, code 0x2001. -/
def SaysOk (out : List Out) : Prop :=
  ∀ u, StatusRequest u → setupRequest (deviceStatus out) u = .answer [0x04, 0x00, 0x01, 0x20]

/-- What a transaction sends: data and the response. -/
def OfTransaction (o : Out) : Prop :=
  match o with
  | .data .. | .more .. | .response .. => True
  | _ => False

/-- The device is not suspended. -/
def Awake (e : Rsp.Ev) : Prop := e ≠ .suspend ∧ e ≠ .resume

/-- The events that happen at a step (some happen while a command is carried out). -/
def eventsOf : Rsp.In D → List Rsp.Ev
  | .packet _ _ _ n => n
  | .ready n => n
  | .ev e => [e]
  | .notify .. => []
  | .env _ => []

/-- A history in which the device is never suspended. -/
def NeverSuspended (is : List (Rsp.In D)) : Prop := ∀ i ∈ is, ∀ e ∈ eventsOf i, Awake e

/-- A history in which the interface is not switched off (unplugged) either. -/
def StaysConnected (is : List (Rsp.In D)) : Prop := ∀ i ∈ is, ∀ e ∈ eventsOf i, e ≠ .cleanup

end Spec
