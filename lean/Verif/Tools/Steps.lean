import Verif.Tools.Disk
/-!
# Saving and opening in steps

`write_to_file` and `from_file` as the calls of the operating system they make, so that a program may be stopped between any two
of them, and several programs may run at the same time. Used for C98 and C99.
-/

namespace Verif

/-- How the operating system answers a call. -/
inductive Reply where
  /-- For `write` and `read`, `n` is the number of bytes it is ready to move. -/
  | done (n : Nat)
  /-- `ErrorKind::Interrupted`, after which the standard library makes the call again. -/
  | interrupted
  | failed
  deriving DecidableEq, Repr

/-- Where a call of `write_to_file` is. -/
inductive SavePhase where
  | start
  /-- In `write_all`, with the position in the file and the bytes that are left. -/
  | writing (pos : Nat) (rest : Bytes)
  /-- It returned `Ok`. -/
  | ok
  /-- It returned an error. -/
  | error
  deriving DecidableEq, Repr

/-- Where a call of `from_file` is. -/
inductive OpenPhase where
  | start
  /-- In `std::fs::read`, with the bytes it has. -/
  | reading (have_ : Bytes)
  /-- `std::fs::read` has returned these bytes; the rest of `from_file` does not look at the file. -/
  | ok (bytes : Bytes)
  | error
  deriving DecidableEq, Repr

/-- A call of `write_to_file` or `from_file` that is made by some program. `content` is what is written to the buffer in memory;
`none` if that fails. -/
inductive Task where
  | save (p : Path) (content : Option Bytes) (phase : SavePhase)
  | fetch (p : Path) (phase : OpenPhase)
  deriving DecidableEq

namespace SavePhase

/-- The condition of the loop of `write_all`. -/
def loop (pos : Nat) (rest : Bytes) : SavePhase := if rest = [] then .ok else .writing pos rest

end SavePhase

namespace Disk

/-- `write` of the operating system at a position of an open file. -/
def writeAt (d : Disk) (p : Path) (pos : Nat) (bs : Bytes) : Disk := d.set p (putAt ((d.files p).getD []) pos bs)

end Disk

namespace Task

/-- The calls of `write_to_file`: `File::create`, which makes the file empty, then the buffer is made in memory (without calls),
then the `write_all` of the standard library, a loop of `write` where 0 bytes are an error. /repo/ssbh_lib/src/lib.rs:197-201,
253-257,291-295,774-788. Simplified: what was written is in the file for all programs at once and is not lost any more. -/
def saveStep (p : Path) (content : Option Bytes) (r : Reply) (d : Disk) : SavePhase → Disk × SavePhase
  | .start =>
    match r with
    | .failed => (d, .error)
    | .interrupted => (d, .start)
    | .done _ =>
      match content with
      | none => (d.set p [], .error)
      | some b => (d.set p [], .loop 0 b)
  | .writing pos rest =>
    match r with
    | .failed => (d, .error)
    | .interrupted => (d, .writing pos rest)
    | .done 0 => (d, .error)
    | .done (n + 1) => (d.writeAt p pos (rest.take (n + 1)), .loop (pos + (rest.take (n + 1)).length) (rest.drop (n + 1)))
  | .ok => (d, .ok)
  | .error => (d, .error)

/-- The calls of `from_file`: `std::fs::read` opens the file and reads until the end of it. `read` of the operating system gives no
bytes only at the end. /repo/ssbh_lib/src/lib.rs:174-178,225-232,267-271 -/
def fetchStep (p : Path) (r : Reply) (d : Disk) : OpenPhase → OpenPhase
  | .start =>
    match r with
    | .failed => .error
    | .interrupted => .start
    | .done _ =>
      match d.files p with
      | none => .error
      | some _ => .reading []
  | .reading bs =>
    match r with
    | .failed => .error
    | .interrupted => .reading bs
    | .done n =>
      let more := ((d.files p).getD []).drop bs.length
      if more = [] then .ok bs else .reading (bs ++ more.take (max n 1))
  | .ok bs => .ok bs
  | .error => .error

def step (r : Reply) (d : Disk) : Task → Disk × Task
  | .save p c s => ((saveStep p c r d s).1, .save p c (saveStep p c r d s).2)
  | .fetch p s => (d, .fetch p (fetchStep p r d s))

end Task

/-- `write_to_file` of a data type: the conversion comes first and makes no calls. /repo/ssbh_data/src/lib.rs:121-128,189-194 -/
def DataFile.saveTask (O : DataOps) (f : DataFile) (p : Path) : Task :=
  match f.convert O with
  | none => .save p none .error
  | some g => .save p g.write .start

/-- A disk, and the calls that are under way. -/
structure World where
  disk : Disk
  tasks : Nat → Task

namespace World

/-- Call number `i` makes a step. -/
def step (w : World) (e : Nat × Reply) : World where
  disk := ((w.tasks e.1).step e.2 w.disk).1
  tasks := fun j => if j = e.1 then ((w.tasks e.1).step e.2 w.disk).2 else w.tasks j

/-- Any order of steps. That programs are stopped means that the list ends. -/
def run (w : World) (events : List (Nat × Reply)) : World := events.foldl step w

end World
end Verif
