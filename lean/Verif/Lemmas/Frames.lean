import Verif.Model.Frames
import Verif.Props.Addressing
import Verif.Props.IeList

namespace Dot15d4
open Out Spec

section
variable (o0 o1 : Byte) (l : Bytes)

@[simp] theorem fc_frameType : FrameControl.frameType (o0 :: o1 :: l) = .ok (decodeFc o0 o1).frameType := by
  have h := congrArg FrameControlRepr.frameType (wRepr_eq_spec o0 o1)
  simp only [wRepr] at h; simp [FrameControl.frameType, h]
@[simp] theorem fc_security : FrameControl.securityEnabled (o0 :: o1 :: l) = .ok (decodeFc o0 o1).securityEnabled := by
  have h := congrArg FrameControlRepr.securityEnabled (wRepr_eq_spec o0 o1)
  simp only [wRepr] at h; simp [FrameControl.securityEnabled, h]
@[simp] theorem fc_ack : FrameControl.ackRequest (o0 :: o1 :: l) = .ok (decodeFc o0 o1).ackRequest := by
  have h := congrArg FrameControlRepr.ackRequest (wRepr_eq_spec o0 o1)
  simp only [wRepr] at h; simp [FrameControl.ackRequest, h]
@[simp] theorem fc_comp : FrameControl.panIdCompression (o0 :: o1 :: l) = .ok (decodeFc o0 o1).panIdCompression := by
  have h := congrArg FrameControlRepr.panIdCompression (wRepr_eq_spec o0 o1)
  simp only [wRepr] at h; simp [FrameControl.panIdCompression, h]
@[simp] theorem fc_sup : FrameControl.seqNoSuppression (o0 :: o1 :: l) = .ok (decodeFc o0 o1).seqNoSuppression := by
  have h := congrArg FrameControlRepr.seqNoSuppression (wRepr_eq_spec o0 o1)
  simp only [wRepr] at h; simp [FrameControl.seqNoSuppression, h]
@[simp] theorem fc_ie : FrameControl.iePresent (o0 :: o1 :: l) = .ok (decodeFc o0 o1).iePresent := by
  have h := congrArg FrameControlRepr.iePresent (wRepr_eq_spec o0 o1)
  simp only [wRepr] at h; simp [FrameControl.iePresent, h]
@[simp] theorem fc_dst : FrameControl.dstMode (o0 :: o1 :: l) = .ok (decodeFc o0 o1).dstMode := by
  have h := congrArg FrameControlRepr.dstMode (wRepr_eq_spec o0 o1)
  simp only [wRepr] at h; simp [FrameControl.dstMode, h]
@[simp] theorem fc_src : FrameControl.srcMode (o0 :: o1 :: l) = .ok (decodeFc o0 o1).srcMode := by
  have h := congrArg FrameControlRepr.srcMode (wRepr_eq_spec o0 o1)
  simp only [wRepr] at h; simp [FrameControl.srcMode, h]
@[simp] theorem fc_version : FrameControl.frameVersion (o0 :: o1 :: l) = .ok (decodeFc o0 o1).frameVersion := by
  have h := congrArg FrameControlRepr.frameVersion (wRepr_eq_spec o0 o1)
  simp only [wRepr] at h; simp [FrameControl.frameVersion, h]

@[simp] theorem df_frameControl : DataFrame.frameControl (o0 :: o1 :: l) = .ok [o0, o1] := by
  simp [DataFrame.frameControl, sliceTo]

end

/-- The bytes after frame control and sequence number. -/
def afterSeq (o0 o1 : Byte) (l : Bytes) : Bytes := if (decodeFc o0 o1).seqNoSuppression then l else l.drop 1

theorem df_addressing (o0 o1 : Byte) (l : Bytes)
    (h : (decodeFc o0 o1).seqNoSuppression = false → 1 ≤ l.length) :
    DataFrame.addressing (o0 :: o1 :: l) =
      (AddressingFields.new (afterSeq o0 o1 l) [o0, o1]).toOption := by
  simp only [DataFrame.addressing, df_frameControl, fc_sup, bind_ok, afterSeq]
  cases hs : (decodeFc o0 o1).seqNoSuppression with
  | true => simp [sliceFrom]
  | false =>
    have := h hs
    rw [if_neg (by simp), sliceFrom_ok (by simp; omega)]
    simp

end Dot15d4
