import Verif.Model.Sync

/-!
# Asynchronous programs

The language in which the tasks of dot15d4/src/csma are modelled: sequential code with calls to the
outside (`Eff`), `join` and `select` of two such programs, and loops.  A call is anything awaited
from, or done to, something outside the task: the driver, the timer, the radio, the random number
generator, the radio's mutex and the signal channel.

There are two readings of a program.

* `Prog.poll`: one poll of the future, against a world that answers the calls.  This is what the
  executor does.
* `Exec p t o`: `t` is a possible record of `p`'s calls, whatever the outside answers and whenever
  it does, and `o` is how far it got.  An execution can be cut at any point, so a statement about
  all `Exec` is a statement about every moment of every execution.

`Lemmas/Poll.lean` proves that what polls do is always an `Exec`.
-/

namespace Dot15d4.Csma
open Dot15d4.Sync (Either)

/-- Asynchronous programs with calls `Eff`, answered by `Ans`.  The functions `k` turn the raw
result into the result of the expression. -/
inductive Prog {Eff : Type} (Ans : Eff → Type) : Type → Type 1 where
  | pure {α : Type} (a : α) : Prog Ans α
  /-- start the call `e`, and await it -/
  | call {α : Type} (e : Eff) (k : Ans e → α) : Prog Ans α
  /-- await the call `e`, which was started by an earlier poll -/
  | wait {α : Type} (e : Eff) (k : Ans e → α) : Prog Ans α
  | bind {α β : Type} (p : Prog Ans β) (k : β → Prog Ans α) : Prog Ans α
  | join {α β γ : Type} (p : Prog Ans β) (q : Prog Ans γ) (k : β → γ → α) : Prog Ans α
  | select {α β γ : Type} (p : Prog Ans β) (q : Prog Ans γ) (k : Either β γ → α) : Prog Ans α
  /-- run `body`, again with the state it returns, until it returns a result -/
  | loop {σ α : Type} (body : σ → Prog Ans (Sum σ α)) (s : σ) : Prog Ans α
  | panic {α : Type} : Prog Ans α

instance {Eff : Type} (Ans : Eff → Type) : Monad (Prog Ans) where
  pure := .pure
  bind := .bind

namespace Prog
variable {Eff : Type} {Ans : Eff → Type} {α β γ W : Type}

/-- Await a call. -/
def await (e : Eff) : Prog Ans (Ans e) := .call e id

/-- `if c { p }`. -/
def when (c : Bool) (p : Prog Ans Unit) : Prog Ans Unit := if c then p else .pure ()

/-- A computation that may panic but makes no calls (an `Err` cannot get here: it is always
matched on before). -/
def lift : Out α → Prog Ans α
  | .ok a => .pure a
  | .err => .panic
  | .panic => .panic

/-- The outcome of a poll: what is left to run, or the result.  `diverged`: the poll did not
finish within the fuel. -/
inductive Res (Ans : Eff → Type) (α : Type) where
  | pending (p : Prog Ans α)
  | ready (a : α)
  | panicked
  | diverged

/-- A world answering polls of calls: `start` is the first poll of a call, `poll` a later one;
`none` is `Pending`. -/
structure World (Ans : Eff → Type) (W : Type) where
  start : (e : Eff) → W → Option (Ans e) × W
  poll : (e : Eff) → W → Option (Ans e) × W

/-- What a loop does after a round: the next round, or nothing. -/
def again {σ : Type} (body : σ → Prog Ans (Sum σ α)) : Sum σ α → Prog Ans α
  | .inl s => .loop body s
  | .inr a => .pure a

/-- What the poll of a loop does, given what polls of its body do. -/
def pollLoop {σ : Type} (body : σ → Prog Ans (Sum σ α))
    (pollBody : σ → W → Res Ans (Sum σ α) × W) : Nat → σ → W → Res Ans α × W
  | 0, _, w => (.diverged, w)
  | n + 1, s, w =>
    match pollBody s w with
    | (.pending p, w) => (.pending (.bind p (again body)), w)
    | (.ready (.inl s), w) => pollLoop body pollBody n s w
    | (.ready (.inr a), w) => (.ready a, w)
    | (.panicked, w) => (.panicked, w)
    | (.diverged, w) => (.diverged, w)

/-- One poll of a program; each loop goes round at most `fuel` times in it.  `join` polls the first
future and then the second (dot15d4/src/sync/join.rs:10-52), `select` likewise, returning at the
first that is ready (dot15d4/src/sync/select.rs:10-39); C39 and C40 are about those functions. -/
def poll (ω : World Ans W) (fuel : Nat) : {α : Type} → Prog Ans α → W → Res Ans α × W
  | _, .pure a, w => (.ready a, w)
  | _, .call e k, w =>
    match ω.start e w with
    | (some r, w) => (.ready (k r), w)
    | (none, w) => (.pending (.wait e k), w)
  | _, .wait e k, w =>
    match ω.poll e w with
    | (some r, w) => (.ready (k r), w)
    | (none, w) => (.pending (.wait e k), w)
  | _, .bind p k, w =>
    match poll ω fuel p w with
    | (.ready b, w) => poll ω fuel (k b) w
    | (.pending p, w) => (.pending (.bind p k), w)
    | (.panicked, w) => (.panicked, w)
    | (.diverged, w) => (.diverged, w)
  | _, .join p q k, w =>
    match poll ω fuel p w with
    | (.ready b, w) =>
      match poll ω fuel q w with
      | (.ready c, w) => (.ready (k b c), w)
      | (.pending q, w) => (.pending (.join (.pure b) q k), w)
      | (.panicked, w) => (.panicked, w)
      | (.diverged, w) => (.diverged, w)
    | (.pending p, w) =>
      match poll ω fuel q w with
      | (.ready c, w) => (.pending (.join p (.pure c) k), w)
      | (.pending q, w) => (.pending (.join p q k), w)
      | (.panicked, w) => (.panicked, w)
      | (.diverged, w) => (.diverged, w)
    | (.panicked, w) => (.panicked, w)
    | (.diverged, w) => (.diverged, w)
  | _, .select p q k, w =>
    match poll ω fuel p w with
    | (.ready b, w) => (.ready (k (.first b)), w)
    | (.pending p, w) =>
      match poll ω fuel q w with
      | (.ready c, w) => (.ready (k (.second c)), w)
      | (.pending q, w) => (.pending (.select p q k), w)
      | (.panicked, w) => (.panicked, w)
      | (.diverged, w) => (.diverged, w)
    | (.panicked, w) => (.panicked, w)
    | (.diverged, w) => (.diverged, w)
  | _, .loop body s, w => pollLoop body (fun s w => poll ω fuel (body s) w) fuel s w
  | _, .panic, w => (.panicked, w)

end Prog

/-- An entry of the record of a program: a call was started, or a call returned. -/
inductive Ev {Eff : Type} (Ans : Eff → Type) where
  | start (e : Eff)
  | ret (e : Eff) (r : Ans e)

namespace Prog
variable {Eff : Type} {Ans : Eff → Type} {α W : Type}

/-- The world `ω`, with everything asked of it recorded. -/
def World.record (ω : World Ans W) : World Ans (W × List (Ev Ans)) where
  start e w :=
    match ω.start e w.1 with
    | (some r, w') => (some r, (w', w.2 ++ [.start e, .ret e r]))
    | (none, w') => (none, (w', w.2 ++ [.start e]))
  poll e w :=
    match ω.poll e w.1 with
    | (some r, w') => (some r, (w', w.2 ++ [.ret e r]))
    | (none, w') => (none, w', w.2)

/-- The calls a future, as a poll left it, waits for. -/
def waits {Eff : Type} {Ans : Eff → Type} : {α : Type} → Prog Ans α → List Eff
  | _, .wait e _ => [e]
  | _, .bind p _ => p.waits
  | _, .join p q _ => p.waits ++ q.waits
  | _, .select p q _ => p.waits ++ q.waits
  | _, _ => []

/-- Poll again and again; the rest of the system acts between polls. -/
def run (ω : World Ans W) (fuel : Nat) : List (W → W) → Prog Ans α → W → Res Ans α × W
  | [], p, w => (.pending p, w)
  | env :: sched, p, w =>
    match p.poll ω fuel (env w) with
    | (.pending p, w) => run ω fuel sched p w
    | r => r

end Prog

/-- How far an execution got: `pending` is "it returned `Pending` to its last poll", `cut` is
"somewhere in between". -/
inductive Fin (α : Type) where
  | cut
  | pending
  | done (a : α)
  | panicked

/-- `t` is an interleaving of `t1` and `t2`. -/
inductive Interleave {E : Type} : List E → List E → List E → Prop where
  | nil : Interleave [] [] []
  | left {x t1 t2 t} : Interleave t1 t2 t → Interleave (x :: t1) t2 (x :: t)
  | right {x t1 t2 t} : Interleave t1 t2 t → Interleave t1 (x :: t2) (x :: t)

/-- The executions of a program. -/
inductive Exec {Eff : Type} {Ans : Eff → Type} :
    {α : Type} → Prog Ans α → List (Ev Ans) → Fin α → Prop where
  | cut {α : Type} (p : Prog Ans α) : Exec p [] .cut
  | pure {α : Type} (a : α) : Exec (.pure a) [] (.done a)
  | callCut {α : Type} (e : Eff) (k : Ans e → α) : Exec (.call e k) [.start e] .cut
  | callPending {α : Type} (e : Eff) (k : Ans e → α) : Exec (.call e k) [.start e] .pending
  | call {α : Type} (e : Eff) (k : Ans e → α) (r : Ans e) :
      Exec (.call e k) [.start e, .ret e r] (.done (k r))
  | waitPending {α : Type} (e : Eff) (k : Ans e → α) : Exec (.wait e k) [] .pending
  | wait {α : Type} (e : Eff) (k : Ans e → α) (r : Ans e) :
      Exec (.wait e k) [.ret e r] (.done (k r))
  | bindCut {α β : Type} {p : Prog Ans β} {k : β → Prog Ans α} {t} :
      Exec p t .cut → Exec (.bind p k) t .cut
  | bindPending {α β : Type} {p : Prog Ans β} {k : β → Prog Ans α} {t} :
      Exec p t .pending → Exec (.bind p k) t .pending
  | bindPanic {α β : Type} {p : Prog Ans β} {k : β → Prog Ans α} {t} :
      Exec p t .panicked → Exec (.bind p k) t .panicked
  | bind {α β : Type} {p : Prog Ans β} {k : β → Prog Ans α} {t t' b o} :
      Exec p t (.done b) → Exec (k b) t' o → Exec (.bind p k) (t ++ t') o
  /-- both branches unfinished, or one of them -/
  | joinCut {α β γ : Type} {p : Prog Ans β} {q : Prog Ans γ} {k : β → γ → α} {t1 t2 t o1 o2} :
      Exec p t1 o1 → Exec q t2 o2 → o1 ≠ .panicked → o2 ≠ .panicked → Interleave t1 t2 t →
      Exec (.join p q k) t .cut
  | joinPending {α β γ : Type} {p : Prog Ans β} {q : Prog Ans γ} {k : β → γ → α} {t1 t2 t} :
      Exec p t1 .pending → Exec q t2 .pending → Interleave t1 t2 t → Exec (.join p q k) t .pending
  | joinFirst {α β γ : Type} {p : Prog Ans β} {q : Prog Ans γ} {k : β → γ → α} {t1 t2 t b} :
      Exec p t1 (.done b) → Exec q t2 .pending → Interleave t1 t2 t → Exec (.join p q k) t .pending
  | joinSecond {α β γ : Type} {p : Prog Ans β} {q : Prog Ans γ} {k : β → γ → α} {t1 t2 t c} :
      Exec p t1 .pending → Exec q t2 (.done c) → Interleave t1 t2 t → Exec (.join p q k) t .pending
  | joinPanic {α β γ : Type} {p : Prog Ans β} {q : Prog Ans γ} {k : β → γ → α} {t1 t2 t o1 o2} :
      Exec p t1 o1 → Exec q t2 o2 → (o1 = .panicked ∨ o2 = .panicked) → Interleave t1 t2 t →
      Exec (.join p q k) t .panicked
  | join {α β γ : Type} {p : Prog Ans β} {q : Prog Ans γ} {k : β → γ → α} {t1 t2 t b c} :
      Exec p t1 (.done b) → Exec q t2 (.done c) → Interleave t1 t2 t →
      Exec (.join p q k) t (.done (k b c))
  | selectCut {α β γ : Type} {p : Prog Ans β} {q : Prog Ans γ} {k : Either β γ → α} {t1 t2 t} :
      Exec p t1 .cut → Exec q t2 .cut → Interleave t1 t2 t → Exec (.select p q k) t .cut
  | selectPanic {α β γ : Type} {p : Prog Ans β} {q : Prog Ans γ} {k : Either β γ → α}
      {t1 t2 t o1 o2} :
      Exec p t1 o1 → Exec q t2 o2 → (o1 = .panicked ∨ o2 = .panicked) → Interleave t1 t2 t →
      Exec (.select p q k) t .panicked
  | selectPending {α β γ : Type} {p : Prog Ans β} {q : Prog Ans γ} {k : Either β γ → α} {t1 t2 t} :
      Exec p t1 .pending → Exec q t2 .pending → Interleave t1 t2 t →
      Exec (.select p q k) t .pending
  /-- the first branch finishes, the second has never been polled -/
  | selectFirst0 {α β γ : Type} {p : Prog Ans β} {q : Prog Ans γ} {k : Either β γ → α} {t b} :
      Exec p t (.done b) → Exec (.select p q k) t (.done (k (.first b)))
  /-- the first branch finishes, the second, which was waiting, is dropped -/
  | selectFirst {α β γ : Type} {p : Prog Ans β} {q : Prog Ans γ} {k : Either β γ → α} {t1 t2 t b} :
      Exec p t1 (.done b) → Exec q t2 .pending → Interleave t1 t2 t →
      Exec (.select p q k) t (.done (k (.first b)))
  /-- the second branch finishes, the first, which was waiting, is dropped -/
  | selectSecond {α β γ : Type} {p : Prog Ans β} {q : Prog Ans γ} {k : Either β γ → α} {t1 t2 t c} :
      Exec p t1 .pending → Exec q t2 (.done c) → Interleave t1 t2 t →
      Exec (.select p q k) t (.done (k (.second c)))
  | loopCut {σ α : Type} {body : σ → Prog Ans (Sum σ α)} {s t} :
      Exec (body s) t .cut → Exec (.loop body s) t .cut
  | loopPending {σ α : Type} {body : σ → Prog Ans (Sum σ α)} {s t} :
      Exec (body s) t .pending → Exec (.loop body s) t .pending
  /-- the body has produced the result, the loop has not returned it yet -/
  | loopStop {σ α : Type} {body : σ → Prog Ans (Sum σ α)} {s t a} :
      Exec (body s) t (.done (.inr a)) → Exec (.loop body s) t .cut
  | loopPanic {σ α : Type} {body : σ → Prog Ans (Sum σ α)} {s t} :
      Exec (body s) t .panicked → Exec (.loop body s) t .panicked
  | loopDone {σ α : Type} {body : σ → Prog Ans (Sum σ α)} {s t a} :
      Exec (body s) t (.done (.inr a)) → Exec (.loop body s) t (.done a)
  | loopNext {σ α : Type} {body : σ → Prog Ans (Sum σ α)} {s s' t t' o} :
      Exec (body s) t (.done (.inl s')) → Exec (.loop body s') t' o →
      Exec (.loop body s) (t ++ t') o
  | panic {α : Type} : Exec (.panic (α := α)) [] .panicked

end Dot15d4.Csma
