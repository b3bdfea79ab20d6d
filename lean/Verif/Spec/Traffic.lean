import Verif.Spec.Network

/-!
# How much a device transmits: counting calls
-/

namespace Dot15d4.Spec
open Dot15d4 Props Csma

/-- The device was given a package. -/
def isPackage : Ev CallAns → Bool
  | .ret (.tx, .driverTransmit) _ => true
  | _ => false

/-- A transmission begins. -/
def isTransmission : Ev CallAns → Bool
  | .start (_, .radioTransmit _ _) => true
  | _ => false

/-- The device passes on and acknowledges the frame in this buffer. -/
def Asking (D : Device) (b : Arr 128) : Prop :=
  ∃ h, Holds D.format b.1 h ∧ PassedOn D h ∧ AcksFrame D.config h ∧ h.seq.isSome = true

open Classical in
/-- The reception of a frame that is acknowledged ended. -/
noncomputable def isAsking (D : Device) : Ev CallAns → Bool
  | .ret (.rx, .radioReceive _) r => decide (r.1 = true ∧ Asking D r.2)
  | _ => false

open Classical in
/-- The medium makes no copies: no device receives a frame more often than the other devices
transmit it. -/
def NoCopies {ι : Type} [DecidableEq ι] (D : ι → Device) (g : List (ι × Ev CallAns)) : Prop :=
  ∀ i m, g.countP (fun x => decide (x.1 = i ∧ Receives (D i) x.2 m)) ≤
    g.countP (fun x => decide (x.1 ≠ i ∧ Transmits (D x.1) x.2 m))

end Dot15d4.Spec
