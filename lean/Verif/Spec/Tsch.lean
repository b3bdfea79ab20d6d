import Verif.Rust

/-!
# TSCH slotframe and link element: what its bytes mean (IEEE 802.15.4-2020, 7.4.4.3)
-/

namespace Dot15d4.Spec

/-- One link: timeslot, channel offset, options (five known bits). -/
structure Link where
  timeslot : BitVec 16
  channelOffset : BitVec 16
  options : Byte
  deriving DecidableEq, Repr

/-- One slotframe descriptor. -/
structure Slotframe where
  handle : Byte
  size : BitVec 16
  links : List Link
  deriving DecidableEq, Repr

/-- The reserved option bits are zero. -/
def Link.Valid (l : Link) : Prop := l.options &&& 0x1f#8 = l.options

/-- Five bytes. -/
def Link.encode (l : Link) : Bytes := u16bytes l.timeslot ++ u16bytes l.channelOffset ++ [l.options]

/-- Handle, size, number of links, links. -/
def Slotframe.encode (s : Slotframe) : Bytes :=
  [s.handle] ++ u16bytes s.size ++ [BitVec.ofNat 8 s.links.length] ++
    (s.links.map Link.encode).flatten

/-- Number of slotframes, slotframe descriptors. -/
def encodeSlotframes (l : List Slotframe) : Bytes :=
  BitVec.ofNat 8 l.length :: (l.map Slotframe.encode).flatten

end Dot15d4.Spec
