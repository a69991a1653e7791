import Verif.Model.Small
import Verif.Spec.Updater

/-!
# Several processes on one disk

Any number of processes use updaters on the same file system. Each runs `New` and then calls one after another; between any two operations of one process
others may run, and a process may be killed at any time. Every process has its own host: server answers, IO failures and temporary names are adversarial.
-/

namespace Tuf.Small
open Spec

/-- What remains of `New`: the trusted set, nothing if it failed. -/
def newDone : Res Trusted × Unit → Prog (Option Trusted)
  | (.ok t, _) => .ret (some t)
  | (_, _) => .ret none

/-- The program of `New`. -/
def started (x : Ctx) : Prog (Option Trusted) := (newUpdater x ()).bind newDone

/-- What remains of a call: the trusted set, nothing after a panic, which ends the process. -/
def callDone {α : Type} : Res α × Trusted → Prog (Option Trusted)
  | (.panic, _) => .ret none
  | (_, t) => .ret (some t)

/-- The program of a call. -/
def called (x : Ctx) (t : Trusted) : Api → Prog (Option Trusted)
  | .refresh => (refresh x t).bind callDone
  | .getTargetInfo p => (getTargetInfo x p t).bind callDone
  | .downloadTarget tf f u => (downloadTarget x tf f u t).bind callDone
  | .findCachedTarget tf f => (findCachedTarget x tf f t).bind callDone

/-- Some answers to its operations let the program end with this value. -/
inductive Ends {α : Type} : Prog α → α → Prop
  | ret (a : α) : Ends (.ret a) a
  | op {o : Op} {k : o.Ans → Prog α} {a : α} (r : o.Ans) (h : Ends (k r) a) : Ends (.op o k) a

/-- A call of one process: its configuration and host, its own history, and what remains of the call. -/
structure Running (α : Type) where
  ctx : Ctx
  trace : List Event
  rest : Prog α

/-- The call after its next operation, and the files. -/
def Running.step {α : Type} (fs : FS) (c : Running α) : FS × Running α :=
  match c.rest with
  | .ret _ => (fs, c)
  | .op o k => ((perform c.ctx.host ⟨fs, c.trace⟩ o).2.fs, ⟨c.ctx, (perform c.ctx.host ⟨fs, c.trace⟩ o).2.trace, k (perform c.ctx.host ⟨fs, c.trace⟩ o).1⟩)

/-- Two calls on one disk, in turns: `true` for an operation of the first. -/
def together {α : Type} : List Bool → FS → Running α → Running α → FS × Running α × Running α
  | [], fs, a, b => (fs, a, b)
  | true :: l, fs, a, b => together l (a.step fs).1 (a.step fs).2 b
  | false :: l, fs, a, b => together l (b.step fs).1 a (b.step fs).2

/-- A process is between calls, in a call (or in `New`), or gone. -/
inductive Stage where
  | idle (t : Trusted)
  | busy (p : Prog (Option Trusted))
  | gone

/-- A process: its configuration and host, its own history, and where it is. -/
structure Proc where
  ctx : Ctx
  trace : List Event
  stage : Stage

/-- The disk and the processes. -/
structure Sys where
  fs : FS
  procs : List Proc

/-- What can happen next. -/
inductive Move where
  /-- A new process runs `New`. -/
  | start (x : Ctx)
  /-- An idle process makes a call. -/
  | call (i : Nat) (a : Api)
  /-- A busy process performs its next operation, or ends its call. -/
  | step (i : Nat)
  /-- A process is killed. -/
  | kill (i : Nat)

/-- The process after its next step, and the files. -/
def Proc.step (fs : FS) (P : Proc) : FS × Proc :=
  match P.stage with
  | .busy (.op o k) =>
    ((perform P.ctx.host ⟨fs, P.trace⟩ o).2.fs, ⟨P.ctx, (perform P.ctx.host ⟨fs, P.trace⟩ o).2.trace, .busy (k (perform P.ctx.host ⟨fs, P.trace⟩ o).1)⟩)
  | .busy (.ret (some t)) => (fs, ⟨P.ctx, P.trace, .idle t⟩)
  | .busy (.ret none) => (fs, ⟨P.ctx, P.trace, .gone⟩)
  | .idle _ => (fs, P)
  | .gone => (fs, P)

/-- The process after the beginning of a call; calls of processes that are not idle do nothing. -/
def Proc.call (P : Proc) (a : Api) : Proc :=
  match P.stage with
  | .idle t => ⟨P.ctx, P.trace, .busy (called P.ctx t a)⟩
  | _ => P

/-- The system after a move; moves of processes that do not exist do nothing. -/
def Sys.move (s : Sys) : Move → Sys
  | .start x => ⟨s.fs, s.procs ++ [⟨x, [], .busy (started x)⟩]⟩
  | .call i a =>
    match s.procs[i]? with
    | some P => ⟨s.fs, s.procs.set i (P.call a)⟩
    | none => s
  | .step i =>
    match s.procs[i]? with
    | some P => ⟨(P.step s.fs).1, s.procs.set i (P.step s.fs).2⟩
    | none => s
  | .kill i =>
    match s.procs[i]? with
    | some P => ⟨s.fs, s.procs.set i ⟨P.ctx, P.trace, .gone⟩⟩
    | none => s

/-- The system after some moves. -/
def Sys.run (s : Sys) (moves : List Move) : Sys := moves.foldl Sys.move s

/-- The trusted set is one that a client of this configuration reaches with verified documents only. -/
def Reached (x : Ctx) (t : Trusted) : Prop := ∃ now T, Trusted.new x.env now x.cfg.localTrustedRoot = .ok T ∧ ClientHistory x.env T t

/-- Documents that belong in the cache: the configured root, if it verifies itself, and those that the trusted set of a client of this configuration accepted for the role. -/
def Belongs (x : Ctx) (role : Str) (data : Bytes) : Prop :=
  ∃ now T, Trusted.new x.env now x.cfg.localTrustedRoot = .ok T ∧
    ((role = b!"root" ∧ data = x.cfg.localTrustedRoot) ∨ ∃ t, JustAccepted x.env T t role data)

/-- The configuration belongs to a process. -/
def Runs (moves : List Move) (x : Ctx) : Prop := Move.start x ∈ moves

/-- A target may be downloaded to this file. -/
def TargetFile (moves : List Move) (p : Str) : Prop :=
  ∃ i tf f u x, Move.call i (.downloadTarget tf f u) ∈ moves ∧ Runs moves x ∧ targetFilePath x tf f = .ok p

end Tuf.Small
