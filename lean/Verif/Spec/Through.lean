import Verif.Model.Responder
/-!
Two responders of which only what is behind them differs, and histories restricted to some commands.
-/
namespace Mtp
namespace Rsp
variable {D E : Type}

/-- The responder with what is behind it seen through `f`. -/
def via (f : D → E) (r : Rsp D) : Rsp E :=
  ⟨r.st, r.prev, r.session, r.req, r.resp, r.dataC, r.ready, r.waitBuf, r.waitDone, r.sendSeq, r.propList, r.edit, r.resend, f r.dev,
    r.out⟩

/-- What happens to it. -/
def In.via (f : D → E) : In D → In E
  | .packet b x y n => .packet b x y n
  | .ready n => .ready n
  | .ev e => .ev e
  | .notify c ps => .notify c ps
  | .env d => .env (f d)

/-- What must hold of the next step: a new command is in `okq`, data is not for the refused announcement, and nothing else changes
the storages. -/
def Fits (okq : Nat → List Nat → Prop) (r : Rsp D) : In D → Prop
  | .packet b first last _ =>
    ((r.st = .idle ∨ r.st = .txCancel ∨ r.st = .suspend) → first = true → last = true → okq (cCode b) (cParams b)) ∧
    (r.st = .waitData → ∀ q, r.req = some q → cCode q = 0x100D → r.resp = .ok → r.uploadHandle ≠ 0)
  | .ready _ => r.st ≠ .waitStorage
  | .ev _ => True
  | .notify .. => True
  | .env _ => False

/-- Histories all of whose steps fit. -/
inductive Fitting (dv : Dev D) (okq : Nat → List Nat → Prop) : Rsp D → List (In D) → Prop
  | nil (r : Rsp D) : Fitting dv okq r []
  | cons {r : Rsp D} {i : In D} {is : List (In D)} : Fits okq r i → (∀ r', r.step dv i = .ok r' → Fitting dv okq r' is) →
      Fitting dv okq r (i :: is)

end Rsp
end Mtp
