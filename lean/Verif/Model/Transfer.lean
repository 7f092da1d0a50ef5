import Verif.Model.Codec
/-! Whole-container compositions of the Tx/Rx operations, as the responder uses them. -/
namespace Mtp

/-- Construct a container, write the data, hand it to the transport: the pattern of every
`MTPTxContainer` use in mts/protocol/mtpresponder.cpp (e.g. 540-560): constructor, `<<`...,
`buffer()`/`bufferSize()` (mtpresponder.cpp `sendContainer`). -/
def transmit (type code tid estimate : Nat) (vs : List Val) : Res (List UInt8) := do
  let t ← Tx.new type code tid estimate
  let t ← t.puts vs
  let (bs, _) ← t.buffer
  return bs

/-- Collect a container from a first packet and continuation packets: the pattern of
mtpresponder.cpp `receiveContainer`/`dataHandler` and mtpcontainerwrapper. -/
def collect (first : List UInt8) (rest : List (List UInt8)) : Res Rx := do
  let r ← Rx.new first
  r.appends rest

end Mtp
