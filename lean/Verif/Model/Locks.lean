import Verif.Model.Basic
/-
  The locks taken while objects of one file are loaded by several threads: `XrefUsedEntry::Initialize` and
  `XrefCompressedEntry::Initialize` (syntax/files/xref_entry.cpp:149-296), `File::InitializeObjectStream`
  (syntax/files/file.cpp:175-232), `StreamObject::GetBodyRaw` (syntax/objects/stream_object.cpp:160-202) and
  `IndirectReferenceObject` (syntax/objects/indirect_reference_object.cpp:161-228).

  Simplified: one access to memory is one step, and the steps of all threads are interleaved (the flags are plain `bool`s in
  the code).  Locks that are held only around accesses to memory, within which no other lock is taken, are left out.
-/
namespace VPdf

/-- The locks, all of them recursive: of a reference object (indirect_reference_object.h: `m_access_lock`), of the object streams
of the file (file.h: `m_object_stream_lock`), of a cross-reference entry (xref_entry.h:128), of a stream object
(stream_object.h: `_access_lock`), of the input (utils/streams/input_stream.cpp:144-150). -/
inductive Mutex where
  | ref (r : Nat)
  | stm
  | entry (n : Nat)
  | body (n : Nat)
  | input
  deriving DecidableEq

/-- Where an object is: at an offset, with the number its Length refers to if it is a stream with such a Length, or in an object
stream. xref_entry.h:145-203. -/
inductive ObjPlace where
  | used (length : Option Nat)
  | packed (stm : Nat)
  deriving DecidableEq

/-- What matters of a file: the places of its objects; for object streams the objects N and First refer to and the objects
listed. file.cpp:189-203. -/
structure Layout where
  place : Nat → ObjPlace
  heads : Nat → List Nat
  members : Nat → List Nat

/-- What a thread is about to do. The first two are the locks; the others are the functions of xref_entry.cpp:149-296,
file.cpp:175-232 and stream_object.cpp:160-202, the names ending in `Locked` stand behind the lock of the function. -/
inductive Act where
  | acquire (l : Mutex)
  | release (l : Mutex)
  | load (n : Nat)
  | loadLocked (n : Nat)
  | mark (n : Nat)
  | unpackLocked (s : Nat)
  | markUnpacked (s : Nat)
  | read (n : Nat)
  | readLocked (n : Nat)
  | markRead (n : Nat)
  deriving DecidableEq

/-- What the threads share: the owner of each lock and how often it has taken it (`std::recursive_mutex`, xref_entry.h:128), the
flags (utils/modify_observer_interface.h:26-37, file.cpp:182-189), and the objects that have been stored, newest first. -/
structure Shared where
  owner : Mutex → Option (Nat × Nat) := fun _ => none
  loaded : Nat → Bool := fun _ => false
  unpacked : Nat → Bool := fun _ => false
  bodies : Nat → Bool := fun _ => false
  log : List Nat := []

/-- `std::recursive_mutex::lock` as used by `ACCESS_LOCK_GUARD`, utils/util.h:146-148: waits (`none`) while another thread has
the lock. -/
def Shared.lock (sh : Shared) (i : Nat) (l : Mutex) : Option Shared :=
  match sh.owner l with
  | none => some { sh with owner := fun x => if x = l then some (i, 1) else sh.owner x }
  | some (j, k) => if j = i then some { sh with owner := fun x => if x = l then some (i, k + 1) else sh.owner x } else none

/-- `std::recursive_mutex::unlock`, utils/util.h:148.  To unlock a lock of another thread is undefined; here it is not possible. -/
def Shared.unlock (sh : Shared) (i : Nat) (l : Mutex) : Option Shared :=
  match sh.owner l with
  | some (j, k + 1) =>
    if j = i then some { sh with owner := fun x => if x = l then (if k = 0 then none else some (i, k)) else sh.owner x } else none
  | _ => none

/-- The object a Length refers to, which is loaded to find the length. parser.cpp:147-155, stream_object.cpp:196. -/
def Layout.lengthOf (L : Layout) (n : Nat) : List Act :=
  match L.place n with
  | .used (some k) => [.load k]
  | _ => []

/-- What the thread has to do next when it performs an action, in front of what it had to do anyhow; `none` while it waits.
* `load`: `XrefUsedEntryBase::GetReference` and the first lines of `Initialize`, xref_entry.cpp:108, 149-163, 267-279, file.cpp:177-179;
* `loadLocked`: xref_entry.cpp:165-265;
* `mark`: `SetReference` and `SetInitialized`, xref_entry.cpp:83-106, 261-262, file.cpp:221-222;
* `unpackLocked`: file.cpp:181-231; `markUnpacked`: file.cpp:225-229;
* `read`, `readLocked`, `markRead`: `StreamObject::GetBodyRaw`, stream_object.cpp:160-202.
Left out: the locks of the reference objects in the headers of streams (Length, N, First), files with several entries for one object (xref_entry.cpp:191-226), wrong object numbers, filters and decryption,
exceptions. -/
def perform (L : Layout) (i : Nat) (sh : Shared) : Act → Option (Shared × List Act)
  | .acquire l => (sh.lock i l).map fun sh => (sh, [])
  | .release l => (sh.unlock i l).map fun sh => (sh, [])
  | .load n =>
    if sh.loaded n then some (sh, [])
    else
      match L.place n with
      | .used _ => some (sh, [.acquire (.entry n), .loadLocked n])
      | .packed s => some (sh, [.acquire .stm, .load s, .unpackLocked s])
  | .loadLocked n =>
    if sh.loaded n then some (sh, [.release (.entry n)])
    else some (sh, [.acquire .input] ++ L.lengthOf n ++ [.mark n, .release .input, .release (.entry n)])
  | .mark n => some ({ sh with loaded := fun x => if x = n then true else sh.loaded x, log := n :: sh.log }, [])
  | .unpackLocked s =>
    if sh.unpacked s then some (sh, [.release .stm])
    else some (sh, (L.heads s).map .load ++ [.read s] ++
      (L.members s).flatMap (fun m => [.acquire (.entry m), .mark m, .release (.entry m)]) ++ [.markUnpacked s, .release .stm])
  | .markUnpacked s => some ({ sh with unpacked := fun x => if x = s then true else sh.unpacked x }, [])
  | .read n => if sh.bodies n then some (sh, []) else some (sh, [.acquire (.body n), .readLocked n])
  | .readLocked n =>
    if sh.bodies n then some (sh, [.release (.body n)])
    else some (sh, [.acquire .input] ++ L.lengthOf n ++ [.markRead n, .release .input, .release (.body n)])
  | .markRead n => some ({ sh with bodies := fun x => if x = n then true else sh.bodies x }, [])

/-- A call of the library: `File::GetIndirectObject` (file.cpp:793-803), `StreamObject::GetBodyRaw` of a loaded object
(stream_object.cpp:160-202), `IndirectReferenceObject::GetReferencedObject` of the reference object `r`
(indirect_reference_object.cpp:173-196), `Equals` or `operator<` of two reference objects (198-228). -/
inductive Call where
  | object (n : Nat)
  | data (n : Nat)
  | follow (r n : Nat)
  | compare (a b : Nat)

/-- The actions of a call. file.cpp:793-803, stream_object.cpp:160-202, indirect_reference_object.cpp:20-41 and 161-228. -/
def Call.acts : Call → List Act
  | .object n => [.load n]
  | .data n => [.load n, .read n]
  | .follow r n => [.acquire (.ref r), .load n, .release (.ref r)]
  | .compare a b => [.acquire (.ref a), .acquire (.ref b), .release (.ref b), .release (.ref a)]

/-- The threads and what they share. xref_entry.cpp:149-296. -/
structure Threads where
  sh : Shared := {}
  todo : List (List Act)

/-- Threads that are about to make their calls. file.cpp:793-803. -/
def Threads.start (calls : List (List Call)) : Threads := { todo := calls.map fun l => l.flatMap Call.acts }

/-- One step of thread `i`, if it has something to do and does not wait. xref_entry.cpp:149-296. -/
def Threads.step (L : Layout) (t : Threads) (i : Nat) : Option Threads :=
  match t.todo[i]? with
  | some (a :: rest) => (perform L i t.sh a).map fun x => ⟨x.1, t.todo.set i (x.2 ++ rest)⟩
  | _ => none

/-- The steps of a schedule: which thread runs next. xref_entry.cpp:149-296. -/
def Threads.run (L : Layout) (t : Threads) : List Nat → Option Threads
  | [] => some t
  | i :: l => (t.step L i).bind fun t => t.run L l

end VPdf
