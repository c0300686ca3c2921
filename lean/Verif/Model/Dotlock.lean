import Verif.Model.Basic

/-!
# The lock on the database: dotlock.c

Any number of processes run `lock_database`, use the database and run `unlock_database`, in any interleaving of their system calls. The file system is what these calls see of it: the name of the lock
(`<database>.lock`), the temporary names (`<lock>.<pid>.<node>`) and the inodes they stand for.
-/

namespace Mairix

/-- Where a process is: the next system call that it will make. -/
inductive LockPc
  /-- not started -/
  | idle
  /-- `unlock_database` of `--unlock` (dotlock.c:59-62) -/
  | force
  /-- `fopen(tname, "w")` (dotlock.c:69-75) -/
  | create
  /-- `link(tname, lock_file_name)` (dotlock.c:77) -/
  | link
  /-- `stat(tname, &sb)` (dotlock.c:79-84) -/
  | stat
  /-- `fopen(lock_file_name, "r")` (dotlock.c:86-95) -/
  | read
  /-- `unlink(tname)` before `exit(1)` (dotlock.c:93-94) -/
  | refuse
  /-- `unlink(tname)` at the end (dotlock.c:103) -/
  | tidy
  /-- `lock_database` has returned: the process uses the database, its next step here is `unlock_database` (dotlock.c:108-112; mairix.c:854 or `unlock_and_exit`) -/
  | inside
  /-- ended -/
  | done
deriving DecidableEq, Repr

/-- A process: where it is, the number that its process id and node make up (its temporary name), and the inode behind that name as it opened it. -/
structure LockProc where
  pc : LockPc
  name : Nat
  ino : Nat

/-- All processes and the part of the file system they share. -/
structure LockState where
  proc : Nat → LockProc
  /-- the inode behind the name of the lock -/
  lock : Option Nat
  /-- the inodes behind the temporary names -/
  tmp : Nat → Option Nat
  /-- the next new inode -/
  next : Nat

/-- What can happen: a process is started (under a process id and node, with or without `--unlock`), makes its next system call, is killed without further ado, or receives one of the signals handled by
`handlesig` (mairix.c:447-450, 708-710). -/
inductive LockEvent
  | start (i name : Nat) (forced : Bool)
  | go (i : Nat)
  | crash (i : Nat)
  | signal (i : Nat)
deriving DecidableEq, Repr

/-- The process is running. -/
def LockPc.live : LockPc → Bool
  | .idle => false
  | .done => false
  | _ => true

/-- Process `i` is now at `pc`. -/
def LockState.at (s : LockState) (i : Nat) (pc : LockPc) : LockState :=
  { s with proc := fun k => if k = i then { s.proc i with pc := pc } else s.proc k }

/-- `unlink(lock_file_name)` (dotlock.c:110). -/
def LockState.unlock (s : LockState) : LockState := { s with lock := none }

/-- `unlink(tname)`. -/
def LockState.untmp (s : LockState) (n : Nat) : LockState := { s with tmp := fun k => if k = n then none else s.tmp k }

/-- `fopen(tname, "w")`: an existing file of that name is truncated, that is, keeps its inode. -/
def LockState.openTmp (s : LockState) (i : Nat) : LockState :=
  let n := (s.proc i).name
  match s.tmp n with
  | some a => { s with proc := fun k => if k = i then { s.proc i with ino := a } else s.proc k }
  | none =>
    { s with
      proc := fun k => if k = i then { s.proc i with ino := s.next } else s.proc k
      tmp := fun k => if k = n then some s.next else s.tmp k
      next := s.next + 1 }

/-- One system call of process `i` (`lock_database`, dotlock.c:33-106, and `unlock_database`, dotlock.c:108-112). The link count of the temporary file is two if the lock is the same inode, else one. That
the calls fail for other reasons (no permission, disk full) is not modelled; most of these make the process exit before it has linked. -/
def LockState.go (s : LockState) (i : Nat) : LockState :=
  let n := (s.proc i).name
  match (s.proc i).pc with
  | .idle => s
  | .force => s.unlock.at i .create
  | .create => (s.openTmp i).at i .link
  | .link =>
    match s.tmp n, s.lock with
    | some a, none => { s with lock := some a }.at i .tidy
    | _, _ => s.at i .stat
  | .stat =>
    match s.tmp n with
    | none => s.at i .done
    | some a => if s.lock = some a then s.at i .tidy else s.at i .read
  | .read => if s.lock = none then s.at i .tidy else s.at i .refuse
  | .refuse => (s.untmp n).at i .done
  | .tidy => (s.untmp n).at i .inside
  | .inside => s.unlock.at i .done
  | .done => s

/-- One event. A process can be started once, and under a process id and node that no running process has. A process that is not running receives nothing. The signal handler unlinks the lock and exits
(`unlock_and_exit`, dotlock.c:114-118); that the signal comes before `lock_file_name` is set is the same as `crash`. -/
def LockState.step (s : LockState) : LockEvent → LockState → Prop
  | .start i n forced, s' => (s.proc i).pc = .idle ∧ (∀ j, (s.proc j).pc.live = true → (s.proc j).name ≠ n) ∧
      s' = { s with proc := fun k => if k = i then ⟨if forced then .force else .create, n, 0⟩ else s.proc k }
  | .go i, s' => (s.proc i).pc.live = true ∧ s' = s.go i
  | .crash i, s' => (s.proc i).pc.live = true ∧ s' = s.at i .done
  | .signal i, s' => (s.proc i).pc.live = true ∧ s' = s.unlock.at i .done

/-- At the beginning no process has been started; the files may be there in any state, left by earlier processes: `lock` and `tmp` are arbitrary, provided that no two temporary names are the same file. -/
def LockState.initial (lock : Option Nat) (tmp : Nat → Option Nat) (next : Nat) : LockState := ⟨fun _ => ⟨.idle, 0, 0⟩, lock, tmp, next⟩

/-- A history of events. -/
inductive LockRun : LockState → List LockEvent → LockState → Prop
  | nil (s) : LockRun s [] s
  | cons {s e s' es s''} : s.step e s' → LockRun s' es s'' → LockRun s (e :: es) s''

end Mairix
