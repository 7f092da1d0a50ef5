import Verif.Model.Server
/-!
CopyObject from one storage to another: what happens on the destination. The source is only read.
-/
namespace Mtp
namespace Server

/-- storageplugin.cpp:43-84: the loop of `copyData` from object `x` of storage `a` to object `y` of this one (see `copyLoop`). -/
def fromLoop (a : Server) (cancelled : Bool) (x y : Nat) : Nat → Server → Nat → Nat → Server × Resp
  | 0, s, _, _ => (s, .ok)
  | n + 1, s, off, rem =>
    if rem = 0 then (s, .ok)
    else
      let len := if rem ≥ COPY_CHUNK then COPY_CHUNK else rem
      let d := a.view.readData (a.ios s.calls 0) x len off
      if cancelled then ((s.tickCall.delete y UNDEF).1, .generalError)
      else if d.1 ≠ .ok then (s.tickCall, d.1)
      else
        let s1 := s.tickCall.write y (some d.2) (off = 0) false
        if rem - len = 0 then s1.1.write y none false true
        else if s1.2 ≠ .ok then s1
        else fromLoop a cancelled x y n s1.1 (u32 (off + len)) (rem - len)

/-- storageplugin.cpp:43-84 `copyData` from storage `a`. -/
def fromData (a : Server) (s : Server) (cancelled : Bool) (x y : Nat) : Server × Resp :=
  if (a.tree.has x && s.tree.has y) = false then (s, .invalidObjectHandle)
  else fromLoop a cancelled x y (u32 (a.sizeOf x) / COPY_CHUNK + 1) s 0 (u32 (a.sizeOf x))

/-- fsstorageplugin.cpp:1448-1560 `copyObject` from storage `a` to this one (see `copyTo`). The first number bounds the depth; the
depth of what storage `a` holds is enough. -/
def fromTo (a : Server) (cancelled : Bool) : Nat → Server → Nat → Nat → Bool → Nat → Server × Resp × Nat
  | 0, s, _, _, _, out => (s, .generalError, out)
  | n + 1, s, h, p, top, out =>
    match a.tree.get h, s.tree.get p with
    | none, _ => (s, .invalidObjectHandle, out)
    | some _, none => (s, .invalidParentObject, out)
    | some it, some pit =>
      if (a.infoOf h).1 ≠ .ok then (s, .invalidObjectHandle, out)
      else if s.room s.calls < a.sizeOf h then (s.tickCall, .storeFull, out)
      else if (top && decide (it.fmt = ASSOC) && Cp.taken s.tree p (join pit.path it.name)) = true then (s, .invalidParentObject, out)
      else if copyable it.name = false then (s, .generalError, out)
      else
        let b := s.addItem { (a.infoOf h).2 with parent := p } p
        if b.2.1 = .ok then
          let c := if it.fmt = ASSOC then copyKids (fun s k => fromTo a cancelled n s k b.2.2 false b.2.2) it.kids b.1
            else fromData a b.1 cancelled h b.2.2
          (c.1, c.2, b.2.2)
        else (b.1, b.2.1, out)

/-- mtpresponder.cpp:1482-1500 (after `preCheck`), storagefactory.cpp:400-425 `copyObject` from storage `a`: a copy that ran out of
space is deleted again. -/
def copyFrom (a : Server) (s : Server) (ps : List Nat) (cancelled : Bool) : Server × Resp × Nat :=
  if a.tree.has (ps.getD 0 0) = false then (s, .invalidObjectHandle, 0)
  else if ps.getD 1 0 ≠ s.sid then (s, .invalidStorageID, 0)
  else if s.tree.has (ps.getD 2 0) = false then (s, .invalidParentObject, 0)
  else
    let b := fromTo a cancelled (Tree.maxLen a.tree.items + 1) s (ps.getD 0 0) (ps.getD 2 0) true 0
    if b.2.1 = .storeFull then ((b.1.delete b.2.2 UNDEF).1, .storeFull, b.2.2) else b

end Server
end Mtp
