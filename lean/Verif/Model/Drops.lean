import Verif.Model.Prog

/-!
# Dropping futures

`Prog.poll` (Model/Prog) does not say what becomes of a future that is dropped before it is ready.
Here it does: when one branch of a `select` is ready, the calls the other one waits for are dropped,
in the same poll and before anything else happens, because the `SelectFuture` is dropped as soon as
it has been awaited (dot15d4/src/sync/select.rs:8-9, 17-20; every `select` of dot15d4/src/csma is
awaited where it is made).  Not modelled: drops while unwinding from a panic.
-/

namespace Dot15d4.Csma
open Dot15d4.Sync (Either)

namespace Prog
variable {Eff : Type} {Ans : Eff → Type} {α W : Type}

/-- A world that is also told when the future of a call is dropped before it returned. -/
structure DropWorld (Ans : Eff → Type) (W : Type) extends World Ans W where
  drop : Eff → W → W

/-- Some calls are dropped, one after the other. -/
def dropCalls (ω : DropWorld Ans W) (l : List Eff) (w : W) : W := l.foldl (fun w e => ω.drop e w) w

/-- Dropping a future that is pending, or was never polled: the calls it waits for are dropped.
Fields and variants are dropped in order, so the first branch of a `join` or `select` goes first. -/
def dropped (ω : DropWorld Ans W) (p : Prog Ans α) (w : W) : W := dropCalls ω p.waits w

/-- The world `ω`, with the calls and their answers recorded, as `World.record`. -/
def DropWorld.recordCalls (ω : DropWorld Ans W) : DropWorld Ans (W × List (Ev Ans)) where
  toWorld := ω.toWorld.record
  drop e w := (ω.drop e w.1, w.2)

/-- One poll of a program, as `poll`, with drops. -/
def pollD (ω : DropWorld Ans W) (fuel : Nat) : {α : Type} → Prog Ans α → W → Res Ans α × W
  | _, .pure a, w => (.ready a, w)
  | _, .call e k, w =>
    match ω.start e w with
    | (some r, w) => (.ready (k r), w)
    | (none, w) => (.pending (.wait e k), w)
  | _, .wait e k, w =>
    match ω.poll e w with
    | (some r, w) => (.ready (k r), w)
    | (none, w) => (.pending (.wait e k), w)
  | _, .bind p k, w =>
    match pollD ω fuel p w with
    | (.ready b, w) => pollD ω fuel (k b) w
    | (.pending p, w) => (.pending (.bind p k), w)
    | (.panicked, w) => (.panicked, w)
    | (.diverged, w) => (.diverged, w)
  | _, .join p q k, w =>
    match pollD ω fuel p w with
    | (.ready b, w) =>
      match pollD ω fuel q w with
      | (.ready c, w) => (.ready (k b c), w)
      | (.pending q, w) => (.pending (.join (.pure b) q k), w)
      | (.panicked, w) => (.panicked, w)
      | (.diverged, w) => (.diverged, w)
    | (.pending p, w) =>
      match pollD ω fuel q w with
      | (.ready c, w) => (.pending (.join p (.pure c) k), w)
      | (.pending q, w) => (.pending (.join p q k), w)
      | (.panicked, w) => (.panicked, w)
      | (.diverged, w) => (.diverged, w)
    | (.panicked, w) => (.panicked, w)
    | (.diverged, w) => (.diverged, w)
  | _, .select p q k, w =>
    match pollD ω fuel p w with
    | (.ready b, w) => (.ready (k (.first b)), dropped ω q w)
    | (.pending p, w) =>
      match pollD ω fuel q w with
      | (.ready c, w) => (.ready (k (.second c)), dropped ω p w)
      | (.pending q, w) => (.pending (.select p q k), w)
      | (.panicked, w) => (.panicked, w)
      | (.diverged, w) => (.diverged, w)
    | (.panicked, w) => (.panicked, w)
    | (.diverged, w) => (.diverged, w)
  | _, .loop body s, w => pollLoop body (fun s w => pollD ω fuel (body s) w) fuel s w
  | _, .panic, w => (.panicked, w)

/-- Poll again and again, as `run`. -/
def runD (ω : DropWorld Ans W) (fuel : Nat) : List (W → W) → Prog Ans α → W → Res Ans α × W
  | [], p, w => (.pending p, w)
  | env :: sched, p, w =>
    match p.pollD ω fuel (env w) with
    | (.pending p, w) => runD ω fuel sched p w
    | r => r

end Prog

end Dot15d4.Csma
