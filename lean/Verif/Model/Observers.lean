import Verif.Model.Incremental
/-
  Observers of the file writer: `IFileWriterObservable` (src/vanillapdf/syntax/files/file_writer.h:33-108), `IObservable`
  (utils/observable_interface.h), the notifications in syntax/files/file_writer.cpp and the callbacks of
  implementation/syntax/c_file_writer_observer.cpp.

  A callback may subscribe, unsubscribe and release observers and may fail.  It does not change the objects or the output; the
  observer that signs a document does, and is in Model/Signing.lean.
-/
namespace VPdf

/-- A weak reference to an observer: its address, and which of the observers that were at that address it is (the counter of
`WeakReference`, unknown_interface.h:44-114). -/
structure ObserverRef where
  addr : Nat
  inc : Nat
  deriving DecidableEq, Repr

/-- The notifications, file_writer.h:13-31.  For the ones after a recalculation: with the offset the observer sees. -/
inductive SaveEvent where
  | initializing
  | finalizing
  | entryBefore (n g : Nat)
  | entryAfter (n g off : Nat)
  | objectBefore (n g : Nat)
  | objectAfter (n g off : Nat)
  | writeBefore (n g : Nat)
  | writeAfter (n g : Nat)
  | flushBefore
  | flushAfter
  deriving DecidableEq, Repr

/-- A call of an observer, with the number of bytes written by then. file_writer.h:98-107. -/
structure ObserverCall where
  who : ObserverRef
  event : SaveEvent
  pos : Nat
  deriving DecidableEq, Repr

/-- What a program may do with observers, c_file_writer.cpp:51-75, c_file_writer_observer.cpp:207-249. -/
inductive ObserverOp where
  | create (r : ObserverRef)
  | subscribe (r : ObserverRef)
  | unsubscribe (r : ObserverRef)
  | release (r : ObserverRef)
  deriving DecidableEq, Repr

/-- The set of observers of a writer, in the order of its buckets, and the observers that exist.
observable_interface.h:70-71. -/
structure Observers where
  subs : List ObserverRef
  live : ObserverRef → Bool

/-- `IObservable::Subscribe` and `Unsubscribe`, observable_interface.h:13-38.  References are compared by their addresses
(unknown_interface.h:50-61, 231-234).  The destructor deactivates the counter (unknown_interface.h:185-189). -/
def Observers.apply (o : Observers) : ObserverOp → Observers
  | .create r => { o with live := fun x => if x = r then true else o.live x }
  | .subscribe r => if o.subs.any (fun x => x.addr == r.addr) then o else { o with subs := r :: o.subs }
  | .unsubscribe r => { o with subs := o.subs.filter (fun x => x.addr != r.addr) }
  | .release r => { o with live := fun x => if x = r then false else o.live x }

/-- Whether the operation invalidates an iterator that is at `cur`: an insertion, which may rehash the set, or the removal of
that element.  observable_interface.h:13-38 with the rules of `std::unordered_set`; an insertion that does not rehash is
taken as invalidating, too. -/
def Observers.invalidates (o : Observers) (cur : ObserverRef) : ObserverOp → Bool
  | .subscribe r => !o.subs.any (fun x => x.addr == r.addr)
  | .unsubscribe r => cur.addr == r.addr
  | _ => false

/-- The operations of one callback, one after another, and whether the iterator of the loop is still valid.
observable_interface.h:13-38. -/
def Observers.applyAll (cur : ObserverRef) : Observers → List ObserverOp → Observers × Bool
  | o, [] => (o, true)
  | o, p :: ps =>
    let bad := o.invalidates cur p
    let (o', good) := Observers.applyAll cur (o.apply p) ps
    (o', good && !bad)

/-- The callbacks: what each does and whether it returns success, depending on the calls before it.  No callback (a null
pointer) does nothing and succeeds. c_file_writer_observer.cpp:41-185. -/
abbrev Callbacks := ObserverRef → SaveEvent → List ObserverCall → List ObserverOp × Bool

/-- The state of a save: the output, what has been flushed, the calls so far, the observers.
file_writer.cpp:34-86. -/
structure SaveRun where
  out : Bytes
  flushed : Option Bytes
  calls : List ObserverCall
  obs : Observers

/-- The loop over the observers and `Invoke`, file_writer.h:35-93, 98-107.  Elements removed by a callback are not reached any
more; those that do not exist any more are passed over.  A callback that fails throws
(c_file_writer_observer.cpp:48-53). -/
def notifyFrom (act : Callbacks) (ev : SaveEvent) : List ObserverRef → SaveRun → Res Unit × SaveRun
  | [], s => (.ok (), s)
  | r :: rest, s =>
    if !(s.obs.subs.contains r && s.obs.live r) then notifyFrom act ev rest s
    else
      let a := act r ev s.calls
      let o := Observers.applyAll r s.obs a.1
      let s' := { s with calls := s.calls ++ [⟨r, ev, s.out.length⟩], obs := o.1 }
      if !a.2 then (.error .throw, s')
      else if !o.2 then (.error .ub, s')
      else notifyFrom act ev rest s'

/-- One notification, file_writer.h:35-93. -/
def notifyAll (act : Callbacks) (ev : SaveEvent) (s : SaveRun) : Res Unit × SaveRun := notifyFrom act ev s.obs.subs s

/-- What a save does: it writes bytes, notifies observers, flushes the output, or fails.
file_writer.cpp:34-155, 1209-1257, 1318-1417. -/
inductive SaveStep where
  | put (b : Bytes)
  | tell (ev : SaveEvent)
  | flush
  | fail (f : Fault)
  deriving DecidableEq, Repr

/-- The steps one after another; an exception leaves the function. file_writer.cpp:34-155. -/
def runSteps (act : Callbacks) : List SaveStep → SaveRun → Res Unit × SaveRun
  | [], s => (.ok (), s)
  | .put b :: l, s => runSteps act l { s with out := s.out ++ b }
  | .flush :: l, s => runSteps act l { s with flushed := some s.out }
  | .fail f :: _, s => (.error f, s)
  | .tell ev :: l, s =>
    match notifyAll act ev s with
    | (.ok _, s) => runSteps act l s
    | (.error f, s) => (.error f, s)

/-- `FileWriter::WriteObject`, file_writer.cpp:1228-1257, at a position of the output. -/
def objectSteps (pos n g : Nat) (o : SObj) : List SaveStep :=
  [.tell (.objectBefore n g), .tell (.objectAfter n g pos), .tell (.writeBefore n g), .put (writeObject n g o), .tell (.writeAfter n g)]

/-- `FileWriter::WriteXrefObjects` and `WriteEntry`, file_writer.cpp:935-988 and 1209-1226. -/
def entriesSteps (own : Option (Nat × Nat)) : Nat → List WEntry → List SaveStep
  | _, [] => []
  | pos, e :: es =>
    if own = some (e.num, e.gen) then entriesSteps own pos es
    else
      match e.kind with
      | .used _ (some obj) =>
        [.tell (.entryBefore e.num e.gen), .tell (.entryAfter e.num e.gen pos)] ++ objectSteps pos e.num e.gen obj ++
          entriesSteps own (pos + (writeObject e.num e.gen obj).length) es
      | .compressed _ _ obj =>
        objectSteps pos e.num e.gen obj ++ entriesSteps own (pos + (writeObject e.num e.gen obj).length) es
      | _ => entriesSteps own pos es

/-- `FileWriter::WriteXref`, file_writer.cpp:1354-1417, with the entries as they are after their objects have been written:
the steps, and the offset of the section. -/
def xrefSteps (c : Codec) (resolve : Nat → Nat → Res Int) (out : Bytes) (s : WSection) : List SaveStep × Int :=
  match s.own with
  | none =>
    let out := out ++ b! "\n"
    ([.put (b! "\n"), .put (writeXrefTable (usedIn s.entries) (s.entries.map WEntry.plain) s.trailer), .put (writeXrefOffset out.length)],
      out.length)
  | some (n, g) =>
    match (do
      let data ← recalculateContent (recalculateWidths (s.entries.map WEntry.plain)) (s.entries.map WEntry.plain)
      let d := streamHeader data s.trailer
      let body ← c.encode d data.body
      let d ← recalcLength resolve body.length d
      pure (SObj.stream d body) : Res SObj) with
    | .error f => ([.fail f], 0)
    | .ok o => (objectSteps out.length n g o ++ [.put (writeXrefOffset out.length)], out.length)

/-- One round of `FileWriter::WriteXrefChain`, file_writer.cpp:1323-1350: the steps, and the offset of the section. -/
def sectionSteps (c : Codec) (resolve : Nat → Nat → Res Int) (out : Bytes) (prev : Option Int) (s : WSection) :
    List SaveStep × Int :=
  match recalcSection resolve prev s with
  | .error f => ([.fail f], 0)
  | .ok s =>
    let w := writeObjects s.own out s.entries
    let x := xrefSteps c resolve w.1 { s with entries := w.2 }
    (entriesSteps s.own out.length s.entries ++ x.1, x.2)

/-- The bytes that steps write. file_writer.cpp:34-155. -/
def stepsBytes : List SaveStep → Bytes
  | [] => []
  | .put b :: l => b ++ stepsBytes l
  | _ :: l => stepsBytes l

/-- `FileWriter::WriteXrefChain`, file_writer.cpp:1318-1352. -/
def chainSteps (c : Codec) (resolve : Nat → Nat → Res Int) : Bytes → Option Int → List WSection → List SaveStep
  | _, _, [] => []
  | out, prev, s :: ss =>
    let r := sectionSteps c resolve out prev s
    r.1 ++ chainSteps c resolve (out ++ stepsBytes r.1) (some r.2) ss

/-- The end of `FileWriter::Write` and `WriteIncremental`, file_writer.cpp:75-86, 144-155. -/
def endSteps : List SaveStep := [.tell .flushBefore, .flush, .tell .flushAfter, .tell .finalizing]

/-- `FileWriter::Write`, file_writer.cpp:34-86, without optimisations and with a licence, as `saveFile`. -/
def saveSteps (c : Codec) (v : PdfVersion) (sections : List WSection) : List SaveStep :=
  let chain := (sections.map cloneSection).reverse
  [.tell .initializing, .put (writeHeader v)] ++ chainSteps c (destResolve chain) (writeHeader v) none chain ++ endSteps

/-- `FileWriter::WriteIncremental`, file_writer.cpp:88-155, as `saveIncremental`. -/
def incrementalSteps (c : Codec) (src : Bytes) (secs : List ISection) : List SaveStep :=
  let out := copyContent src [] ++ b! "\n"
  [.tell .initializing, .put out] ++
    (match createIncremental secs with
      | .error f => [.fail f]
      | .ok s => (sectionSteps c (destResolve [cloneSection s]) out none (cloneSection s)).1) ++ endSteps

/-- A save with observers, file_writer.cpp:34-86: how it ends, and the state it leaves. -/
def observedSave (act : Callbacks) (obs : Observers) (c : Codec) (v : PdfVersion) (sections : List WSection) :
    Res Unit × SaveRun :=
  runSteps act (saveSteps c v sections) ⟨[], none, [], obs⟩

/-- An incremental save with observers, file_writer.cpp:88-155. -/
def observedIncremental (act : Callbacks) (obs : Observers) (c : Codec) (src : Bytes) (secs : List ISection) :
    Res Unit × SaveRun :=
  runSteps act (incrementalSteps c src secs) ⟨[], none, [], obs⟩

end VPdf
