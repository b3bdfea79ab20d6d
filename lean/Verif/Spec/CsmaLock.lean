import Verif.Model.CsmaSync
import Verif.Spec.Protocol

/-!
# Who uses the radio, and when
-/

namespace Dot15d4.Spec
open Dot15d4 Csma

/-- What a task does with the radio: it gets hold of it, gives it back, starts a transmission or a
reception, or one of them ends. -/
inductive RadioEv where
  | acquired
  | released
  | transmits
  | transmitted
  | listens
  | heard
  deriving DecidableEq, Repr

/-- The task an entry of a record is about, if it is about the radio. -/
def radioEv : Ev CallAns → Option (Tid × RadioEv)
  | .ret (i, .tryLock) (r : Bool) => if r then some (i, .acquired) else none
  | .ret (i, .lock) _ => some (i, .acquired)
  | .start (i, .unlock) => some (i, .released)
  | .start (i, .radioTransmit _ _) => some (i, .transmits)
  | .ret (i, .radioTransmit _ _) _ => some (i, .transmitted)
  | .start (i, .radioReceive _) => some (i, .listens)
  | .ret (i, .radioReceive _) _ => some (i, .heard)
  | _ => none

/-- How a task uses the radio: not at all, holding it idly, or holding it during an operation. -/
inductive RadioUse where
  | free
  | held
  | transmitting
  | receiving
  deriving DecidableEq, Repr

/-- What is allowed.  A reception may be abandoned (by giving the radio back), a transmission may
not. -/
def RadioUse.next : RadioUse → RadioEv → Option RadioUse
  | .free, .acquired => some .held
  | .held, .released => some .free
  | .held, .transmits => some .transmitting
  | .held, .listens => some .receiving
  | .transmitting, .transmitted => some .held
  | .receiving, .heard => some .held
  | .receiving, .released => some .free
  | _, _ => none

/-- The same for the entries of a record: those of other tasks, and those not about the radio, do
not matter. -/
def radioStep (tid : Tid) (s : RadioUse) (ev : Ev CallAns) : Option RadioUse :=
  match radioEv ev with
  | some (i, e) => if i = tid then s.next e else some s
  | none => some s

/-- How a task uses the radio after `t`; `none` if it did something that is not allowed. -/
def usage (tid : Tid) (t : List (Ev CallAns)) : Option RadioUse := walk (radioStep tid) .free t

/-- The random number generator: it is used, and given back, only while held, taken only while not,
and the transmit task does not keep it while it pauses. -/
def rngStep (held : Bool) : Ev CallAns → Option Bool
  | .ret (_, .rngLock) _ => if held then none else some true
  | .start (_, .rngUnlock) => if held then some false else none
  | .start (_, .rngNext) => if held then some true else none
  | .start (.tx, .delay _) => if held then none else some false
  | _ => some held

end Dot15d4.Spec
