import Verif.Model.Text

/-!
# Lines of dot15d4-cat that cannot be told apart in print
-/

namespace Dot15d4.Spec
open Dot15d4

/-- The unknown ids, which are spelled alike. -/
def unknownIds : List Cat.Line :=
  [.headerElement .unkown, .nestedElement (.short .unkown), .nestedElement (.long .unkown)]

/-- Lines that are the same except for how a time was rounded, or which of the unknown ids is shown. -/
inductive Alike : Cat.Line → Cat.Line → Prop where
  | refl (l : Cat.Line) : Alike l l
  | time {t t' : Duration} (n : Bool) (h : Text.duration t = Text.duration t') :
      Alike (.timeCorrection t n) (.timeCorrection t' n)
  | timings {t t' : TschTimeslotTimings}
      (h : [t.ccaOffset, t.cca, t.txOffset, t.rxOffset, t.txAckDelay, t.rxAckDelay, t.rxWait, t.ackWait,
          t.rxTx, t.maxAck, t.maxTx, t.timeslotLength].map Text.duration =
        [t'.ccaOffset, t'.cca, t'.txOffset, t'.rxOffset, t'.txAckDelay, t'.rxAckDelay, t'.rxWait, t'.ackWait,
          t'.rxTx, t'.maxAck, t'.maxTx, t'.timeslotLength].map Text.duration) :
      Alike (.timings t) (.timings t')
  | unknown {l m : Cat.Line} (hl : l ∈ unknownIds) (hm : m ∈ unknownIds) : Alike l m

end Dot15d4.Spec
