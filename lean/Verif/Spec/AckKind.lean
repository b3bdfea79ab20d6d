import Verif.Spec.Csma

/-!
# Which acknowledgement the standard has for a frame

IEEE 802.15.4, 6.7.4.2: a frame that reaches its recipient, that is not broadcast, and whose ack
request field is set, is acknowledged: with an Imm-Ack that repeats its sequence number if its frame
version is 0 or 1, with an Enh-Ack if its frame version is 2.  Only data frames and MAC commands may
ask for one (7.2.2.5).
-/

namespace Dot15d4.Spec
open Dot15d4 Props Csma

/-- An acknowledgement. -/
inductive AckKind where
  | immediate (seq : Byte)
  | enhanced

/-- The frame asks a single device for an acknowledgement, and may do so. -/
def AsksForAck (h : Header) : Prop :=
  h.fc.ackRequest = true ∧ Unicast h ∧ (h.fc.frameType = .data ∨ h.fc.frameType = .macCommand)

/-- The acknowledgement its recipient sends. -/
inductive StdAck (h : Header) : AckKind → Prop where
  | immediate {seq : Byte} : AsksForAck h → h.fc.frameVersion = .v2003 ∨ h.fc.frameVersion = .v2006 →
      h.seq = some seq → StdAck h (.immediate seq)
  | enhanced : AsksForAck h → h.fc.frameVersion = .v2020 → StdAck h .enhanced

end Dot15d4.Spec
