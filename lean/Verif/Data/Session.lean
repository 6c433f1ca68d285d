import Verif.Data.Crash
import Verif.Data.RepairSpec

/-!
# Sessions: histories of what is done to the collection and to its files
(`/repo/src/pyromat/dat.py`)

A session begins with an empty collection and some data files.  Then the collection is loaded,
cleared, extended, changed and cut down in any order, updates of the files are begun and may be
interrupted, and files may be changed by other means.
-/

namespace PyroMat.Data

open PyroMat.Data.Spec

/-- The collection in memory, and the files. -/
structure Session where
  data : Coll
  files : Flat

/-- `del pm.dat.data[k]`: the statement by which a user removes an entry (`dat.py:385-389` speaks of
entries that have been removed from memory). -/
def Coll.del (c : Coll) (k : String) : Coll := c.filter fun e => e.1 ≠ k

/-- The new entry `r` has a data file of its own: no other entry of the collection belongs there and
no record with another identifier stands there. -/
def Fits (pl : Places) (dest : String) (s : Session) (r : Rec) : Prop :=
  place dest r ∈ paths pl ∧ (∀ x, recordAt s.files (place dest r) = some x → x.id = r.id) ∧
    ∀ k r', s.data.lookup k = some r' → k ≠ r.id → place dest r' ≠ place dest r

/-- Files changed by other means do no harm: the records on file can be loaded, and in the file of an entry
in memory there is no record with another identifier. -/
def Harmless (pl : Places) (reg : Registry) (dest : String) (data : Coll) (g : Flat) : Prop :=
  ∀ p ∈ paths pl, ∀ x, recordAt g p = some x → Loadable reg x ∧
    ∀ k r, data.lookup k = some r → place dest r = p → x.id = k

/-- The constructors of the classes do not look at the name of the file a record comes from. -/
def Blind (reg : Registry) : Prop := ∀ r p, Loadable reg r → Loadable reg { r with fromfile := p }

/-- One step of a session.

* `load`: `pm.dat.load()` with any configuration, successful or not (`dat.py:80-318`);
* `clear`: `pm.dat.clear()` (`dat.py:320-325`), or the end of the process;
* `new`: `pm.dat.new(d)`, successful or not (`dat.py:327-356`);
* `edit`: a change of what an entry says, other than its identifier and the name of its file;
* `del`: the removal of an entry;
* `update`: a quiet `pm.dat.updatefiles()` (`dat.py:368-571`), complete or interrupted at any point;
* `other`: files are suppressed, revived (`utility.py:570-620`), copied or edited. -/
inductive Step (pl : Places) (reg : Registry) (dest : String) : Session → Session → Prop where
  | load (s : Session) (cfg : Cfg) :
      Step pl reg dest s ⟨(load cfg reg (view pl s.files) pl.dirs s.data).1, s.files⟩
  | clear (s : Session) : Step pl reg dest s ⟨clear s.data, s.files⟩
  | new (s : Session) (d : NewData) (h : ∀ r, mkNew d = some r → Fits pl dest s r) :
      Step pl reg dest s ⟨(new reg d s.data).1, s.files⟩
  | edit (s : Session) (k : String) (r r' : Rec) (h : s.data.lookup k = some r) (hi : r'.id = r.id)
      (hf : r'.fromfile = r.fromfile) (hl : Loadable reg r') : Step pl reg dest s ⟨s.data.set k r', s.files⟩
  | del (s : Session) (k : String) : Step pl reg dest s ⟨s.data.del k, s.files⟩
  | update (s : Session) (u : Update) (hp : u.places = pl) (hr : u.reg = reg) (hd : NewIn u dest)
      (hq : u.verbose = false) (hc : ∀ p, u.can p = true) (g : Flat)
      (hi : Interrupted u.can (updateOps u s.data s.files) s.files g) : Step pl reg dest s ⟨s.data, g⟩
  | other (s : Session) (g : Flat) (h : Harmless pl reg dest s.data g) : Step pl reg dest s ⟨s.data, g⟩

/-- Any number of steps. -/
inductive History (pl : Places) (reg : Registry) (dest : String) : Session → Session → Prop where
  | start (s) : History pl reg dest s s
  | step {s t t'} : History pl reg dest s t → Step pl reg dest t t' → History pl reg dest s t'

end PyroMat.Data
