import Verif.Model.Facts
/-!
Specification of what a storage says about files: what is true of a file, when a notification about it is
still to come, and which steps of the world the statements exclude.
-/
namespace Spec
open Mtp

/-- The extension of a file name: what follows its last dot; `none` if it has no dot. -/
inductive HasExt : Path → Path → Prop
  | intro (stem ext : Path) : '.' ∉ ext → HasExt (stem ++ '.' :: ext) ext

/-- The format a file name stands for: that of its extension, in whatever case, if it is in the table; else Undefined. -/
inductive NamedFormat (other : Char → List Char) : Path → Nat → Prop
  | listed (name ext : Path) (e : String) (v : Nat) : HasExt name ext → (e, v) ∈ extTable → lowerWith other ext = e.toList →
      NamedFormat other name v
  | unlisted (name : Path) : (∀ ext e v, HasExt name ext → (e, v) ∈ extTable → lowerWith other ext ≠ e.toList) →
      NamedFormat other name 0x3000

/-- What can be said about a file. -/
inductive Aspect where
  | size | dates | format
  deriving DecidableEq

/-- What is said about the file at `p` agrees with the file. -/
def Agrees (k : Aspect) (s : FactSt) (p : Path) (f : Facts) : Prop :=
  match k with
  | .size => ∀ n, AMap.get s.disk p = some n → f.size = n.len
  | .dates => ∀ n, AMap.get s.disk p = some n → f.modified = formatDate s.zone n.mtime ∧ f.created = formatDate s.zone n.mtime
  | .format => f.fmt = formatOf s.other p ∧ (f.thumbFmt = if thumbnailable p then 0x3808 else UNDEF) ∧
      (f.thumbW = if thumbnailable p then 100 else 0) ∧ (f.thumbH = if thumbnailable p then 100 else 0)

/-- A notification that the file `p` went away is among `ns`. -/
def GoneIn (ns : List Note) (p : Path) : Prop := .deleted p ∈ ns ∨ ∃ q, .moved p q ∈ ns

/-- A notification about `p` is waiting that will make the storage look again. -/
def Owed (s : FactSt) (p : Path) : Prop := .closed p ∈ s.pending ∨ GoneIn s.pending p

/-- The storage has the file `p` open, for contents the host is sending. -/
def Sending (s : FactSt) (p : Path) : Prop := ∃ pos, s.dataFile = some (some p, pos)

/-- The steps for which the statements are made. Excluded: an upload whose file cannot be opened, or that begins while
another one is under way or while it is waiting to be told that the file is gone; a program that replaces a file by renaming another one over it; a program that changes size
(or time) of a file without opening it; TruncateObject (for dates); a request of the host to rename or move
an object that is being sent or about which a notification is waiting, or, for the format, to a name with another extension. -/
def FOk (k : Aspect) (s : FactSt) : FactSt.FOp → Prop
  | .writeSeg h first opened _ _ _ =>
    if first then opened = true ∧ (∀ p, ¬ Sending s p) ∧ ∀ p f, AMap.get s.objs h = some (p, f) → ¬ GoneIn s.pending p
    else s.writing = h
  | .editWrite _ _ _ _ _ _ => ∀ p, ¬ Sending s p
  | .truncate _ _ _ _ => k ≠ .dates
  | .hostMove h q _ => ∀ p f, AMap.get s.objs h = some (p, f) →
      s.writing ≠ h ∧ ¬ Owed s p ∧ (k = .format → formatOf s.other q = formatOf s.other p ∧ thumbnailable q = thumbnailable p)
  | .rename _ q => AMap.get s.disk q = none
  | .byName p n => ∀ old, AMap.get s.disk p = some old →
      match k with
      | .size => n.len = old.len
      | .dates => n.mtime = old.mtime
      | .format => True
  | _ => True

/-- A history all of whose steps are of that kind. -/
def FHist (k : Aspect) (s : FactSt) : List FactSt.FOp → Prop
  | [] => True
  | o :: os => FOk k s o ∧ FHist k (s.step o) os

/-- Nothing is going on: no notification is waiting, no program has a file open that it changed, no transfer is under way. -/
def Settled (s : FactSt) : Prop := s.pending = [] ∧ s.dirty = [] ∧ s.dataFile = none

/-- The object an event is about. -/
def eventObject : TEvent → Nat
  | .added h | .removed h | .infoChanged h => h

/-- What the events `es` tell the host about the object `h` is what happened to it. -/
inductive Told (es : List TEvent) (h : Nat) : Option (Path × Facts) → Option (Path × Facts) → Prop
  | same (a : Option (Path × Facts)) : (∀ e ∈ es, eventObject e ≠ h) → Told es h a a
  | appeared (b : Path × Facts) : es = [.added h] → Told es h none (some b)
  | vanished (a : Path × Facts) : es = [.removed h] → Told es h (some a) none
  | changed (a b : Path × Facts) : a ≠ b → es = [.infoChanged h] → Told es h (some a) (some b)

/-- The steps for which it is stated that no file gets lost. Excluded: the host renames, moves or deletes an object while
the notification that a program renamed its file is waiting; the host renames or moves an object to a name about which a
notification is waiting that it went away. -/
def KOk (s : FactSt) : FactSt.FOp → Prop
  | .hostMove h q _ => ∀ p f, AMap.get s.objs h = some (p, f) → (∀ y, .moved p y ∉ s.pending) ∧ ¬ GoneIn s.pending q
  | .hostDelete h _ => ∀ p f, AMap.get s.objs h = some (p, f) → ∀ y, .moved p y ∉ s.pending
  | _ => True

/-- A history all of whose steps are of that kind. -/
def KHist (s : FactSt) : List FactSt.FOp → Prop
  | [] => True
  | o :: os => KOk s o ∧ KHist (s.step o) os

end Spec
