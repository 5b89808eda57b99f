/-
  Reference counting (src/vanillapdf/utils/unknown_interface.cpp and .h, deferred.h) as a transition system of
  threads that share one object.

  A step of the system is one atomic operation of one thread.  `std::atomic` operations without an explicit
  memory order are sequentially consistent, so the interleavings of these steps are the executions.
-/
import Verif.Model.Basic

namespace VPdf

/-- Where a thread stands inside a call. unknown_interface.cpp:36-44. -/
inductive RPc where
  /-- outside of any call -/
  | idle
  /-- in `Release`: the decrement has returned zero, `delete this` has not started -/
  | deleting
  /-- in `Release`: the destructor has run, the memory has not been given back -/
  | freeing
  /-- in `WeakReference::GetReference`: `IsActive` was true, `AddRef` has not run -/
  | upgrading
  deriving DecidableEq, Repr

/-- A thread: the number of references it holds and its position.  Every thread also has a weak reference.
unknown_interface.h: `WeakReference`; deferred.h. -/
structure RThread where
  strong : Nat
  pc : RPc
  deriving DecidableEq, Repr

/-- The shared object and the threads.  `counter` is `m_ref_counter` (`std::atomic<uint32_t>`,
unknown_interface.h:190), `active` is `WeakReferenceCounter::m_active` (line 28). `destructions` and `frees` count
the runs of the destructor and of the deallocation.  `ub` is set when a thread touches the object after its
destructor has run, or destroys it again. -/
structure RState where
  counter : UInt32
  active : Bool
  destructions : Nat
  frees : Nat
  ub : Bool
  threads : List RThread
  deriving DecidableEq, Repr

/-- What a thread can do next. unknown_interface.cpp:9-44. -/
inductive RAction where
  /-- copy a reference the thread holds (`AddRef`) -/
  | copy
  /-- start to release a reference the thread holds (the decrement of `Release`) -/
  | release
  /-- move a held reference to another thread -/
  | pass (to : Nat)
  /-- start to turn the weak reference into a reference (the test of `GetReference`) -/
  | upgrade
  /-- the next step of the call in progress -/
  | advance
  deriving DecidableEq, Repr

/-- Replace a thread. No counterpart in unknown_interface.cpp: a step changes one thread. -/
def RState.put (s : RState) (t : Nat) (th : RThread) : RState := { s with threads := s.threads.set t th }

/-- `IUnknown::AddRef` (unknown_interface.cpp:36-38), one atomic increment. -/
def RState.addRef (s : RState) (t : Nat) (th : RThread) : RState :=
  if s.destructions > 0 then { s with ub := true }
  else { s with counter := s.counter + 1 }.put t { strong := th.strong + 1, pc := .idle }

/-- `IUnknown::Release` (unknown_interface.cpp:40-44) up to the test of the decremented value. -/
def RState.decrement (s : RState) (t : Nat) (th : RThread) : RState :=
  if s.destructions > 0 then { s with ub := true }
  else
    let c := s.counter - 1
    { s with counter := c }.put t { strong := th.strong - 1, pc := if c = 0 then .deleting else .idle }

/-- `delete this` (unknown_interface.cpp:42), first half: the destructors.  `~IWeakReferenceable`
(unknown_interface.h:228-232) clears the flag of the weak references. The destructors of derived classes, which run
before, are not modelled as a separate step. -/
def RState.destruct (s : RState) (t : Nat) (th : RThread) : RState :=
  if s.destructions > 0 then { s with ub := true }
  else { s with destructions := s.destructions + 1, active := false }.put t { th with pc := .freeing }

/-- `delete this`, second half: the memory is given back. unknown_interface.cpp:42. -/
def RState.free (s : RState) (t : Nat) (th : RThread) : RState :=
  if s.frees > 0 then { s with ub := true }
  else { s with frees := s.frees + 1 }.put t { th with pc := .idle }

/-- Hand a reference over (a moved `Deferred`, deferred.h:87-89): the counter is not touched. -/
def RState.handOver (s : RState) (t : Nat) (th : RThread) (to : Nat) : RState :=
  match s.threads[to]? with
  | none => s
  | some _ =>
    let s := s.put t { th with strong := th.strong - 1 }
    match s.threads[to]? with
    | none => s
    | some o => s.put to { o with strong := o.strong + 1 }

/-- One step of thread `t`.  Steps that the thread cannot take (it does not exist, holds no reference, is inside
another call) leave the state as it is, and so does every step after undefined behaviour. unknown_interface.cpp:9-44. -/
def RState.step (s : RState) (ta : Nat × RAction) : RState :=
  if s.ub then s else
  match s.threads[ta.1]? with
  | none => s
  | some th =>
    match th.pc, ta.2 with
    | .idle, .copy => if th.strong = 0 then s else s.addRef ta.1 th
    | .idle, .release => if th.strong = 0 then s else s.decrement ta.1 th
    | .idle, .pass to => if th.strong = 0 then s else s.handOver ta.1 th to
    -- `GetReference` (unknown_interface.h:76-88) throws if the flag is cleared
    | .idle, .upgrade => if s.active then s.put ta.1 { th with pc := .upgrading } else s
    | .deleting, .advance => s.destruct ta.1 th
    | .freeing, .advance => s.free ta.1 th
    -- `return Deferred<T>(m_ptr)` (unknown_interface.h:87, deferred.h:62-79)
    | .upgrading, .advance => s.addRef ta.1 th
    | _, _ => s

/-- A schedule: which thread takes which step. A sequence of the steps of unknown_interface.cpp:9-44. -/
def RState.run (s : RState) (schedule : List (Nat × RAction)) : RState := schedule.foldl RState.step s

/-- A new object owned by the first of `others + 1` threads: `IUnknown()` sets the counter to zero
(unknown_interface.cpp:22-23), `Deferred(T*)` (deferred.h:62-79) adds the reference. -/
def RState.start (others : Nat) : RState where
  counter := 1
  active := true
  destructions := 0
  frees := 0
  ub := false
  threads := { strong := 1, pc := .idle } :: List.replicate others { strong := 0, pc := .idle }

end VPdf
