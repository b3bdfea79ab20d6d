/-!
# Protocols: automata over histories
-/

namespace Dot15d4.Csma

/-- The state of an automaton after some entries of a history; `none` once an entry was not
allowed. -/
def walk {S E : Type} (step : S → E → Option S) : S → List E → Option S
  | s, [] => some s
  | s, e :: l => (step s e).bind fun s => walk step s l

end Dot15d4.Csma
