import Verif.Model.Tools

/-!
# The foreign keys of the attribute authority, `hgaa/schema/aauth.py:36-37`

`Model/Tools.lean` leaves the foreign keys out, as SQLite does unless told otherwise. Here the database checks them, as MySQL
does: an assignment is stored only if its user and its attribute are stored or stored along with it, and rows are not deleted
while an assignment refers to them. Both are `IntegrityError`s and undo the transaction. The order in which SQLAlchemy inserts the
rows of one commit follows the references, so that rows of the same commit count as stored. The tables of the policy authority
are not in this file.
-/

namespace Verif

/-- The tables of the attribute authority. -/
inductive AATable where
  | attributes
  | users
  | assignments
deriving DecidableEq, Repr

/-- The table of a row, `hgaa/schema/aauth.py:14`, `:24`, `:34`. -/
def AARow.table : AARow → AATable
  | .user _ => .users
  | .attribute _ => .attributes
  | .assignment _ => .assignments

/-- The rows a row refers to are stored, `hgaa/schema/aauth.py:36-37`. -/
def AARow.refersInto (collate : Str → Str) (rows : List AARow) : AARow → Bool
  | .assignment a =>
    rows.any (fun | .user u => decide (u.id = a.userId) | _ => false) &&
    rows.any (fun | .attribute t => decide (collate t.id = collate a.attId) | _ => false)
  | _ => true

/-- `insertRows` by a database that checks the foreign keys of the new rows. -/
def insertChecked (collate : Str → Str) (faults : DbFaults) (engine : Option Engine) (st : Stores AARow) (new : List AARow) :
    Stores AARow × Except PyExc Unit :=
  match engine with
  | some e =>
    if faults.add.isNone && !new.all (AARow.refersInto collate (st.rows e.place ++ new)) then (st, .error .integrityError)
    else insertRows (aaTables collate) faults engine st new
  | none => insertRows (aaTables collate) faults engine st new

/-- Deleting all rows of a table, refused if that takes a row away another one refers to. -/
def deleteTable (collate : Str → Str) (t : AATable) (rows : List AARow) : Except PyExc (List AARow) :=
  let kept := rows.filter (fun r => decide (r.table ≠ t))
  if kept.any (fun r => r.refersInto collate rows && !r.refersInto collate kept) then .error .integrityError else .ok kept

/-- Deleting the rows of one table after the other. -/
def deleteTables (collate : Str → Str) : List AATable → List AARow → Except PyExc (List AARow)
  | [], rows => .ok rows
  | t :: ts, rows => do
    let rows ← deleteTable collate t rows
    deleteTables collate ts rows

/-- `reversed(base.metadata.sorted_tables)`, `hgaa/database.py:33`: `sorted_tables` has a table behind those it refers to, and
orders by name otherwise. -/
def wipeOrder : List AATable := [.assignments, .users, .attributes]

/-- `wipeTables` by a database that checks foreign keys; only the rows of the attribute authority are in it. -/
def wipeChecked (U : Uni) (collate : Str → Str) (faults : DbFaults) (engine : Option Engine) (st : Stores AARow) (name : Str) :
    Stores AARow × Except PyExc Unit :=
  match engine with
  | some e =>
    if U.lower name = "aauth".toList ∧ faults.wipe = none then
      match deleteTables collate wipeOrder (st.rows e.place) with
      | .error x => (st, .error x)
      | .ok kept => ({ st with rows := fun p => if p = e.place then kept else st.rows p }, .ok ())
    else wipeTables U (aaTables collate) faults engine st name
  | none => wipeTables U (aaTables collate) faults engine st name

/-- `populateRows` for a database that checks foreign keys, `hgaa/database.py:11-44`. -/
def populateChecked (U : Uni) (collate : Str → Str) (c : Config) (create : Str → Except PyExc Unit) (faults : DbFaults)
    (st : Stores AARow) (name : Str) (new : List AARow) (wipeFirst useTest : Bool) : Stores AARow × Except PyExc Unit :=
  match getSession U c create st.engines (sectionName name useTest) with
  | (es, .error e) => ({ st with engines := es }, .error e)
  | (es, .ok engine) =>
    let st := { st with engines := es }
    let wiped := if wipeFirst then wipeChecked U collate faults engine st name else (st, .ok ())
    match wiped with
    | (st, .error e) => (st, .error e)
    | (st, .ok ()) => insertChecked collate faults engine st new

/-- `gen_atts` on a database that checks foreign keys, `hgaa/tools.py:51-64`. -/
def genAttsChecked (U : Uni) (collate : Str → Str) (c : Config) (create : Str → Except PyExc Unit) (faults : DbFaults)
    (st : Stores AARow) (numAtts : Int) : Stores AARow × Except PyExc Unit :=
  match getSession U c create st.engines "AAUTH".toList with
  | (es, .error e) => ({ st with engines := es }, .error e)
  | (es, .ok engine) =>
    insertChecked collate faults engine { st with engines := es } ((List.range numAtts.toNat).flatMap genAttRows)

/-- `pop_and_gen` on a database that checks foreign keys, `hgaa/tools.py:67-70`. -/
def popAndGenChecked (U : Uni) (collate : Str → Str) (c : Config) (create : Str → Except PyExc Unit) (faults faults' : DbFaults)
    (st : Stores AARow) (numAtts : Int) : Stores AARow × Except PyExc Unit :=
  match populateChecked U collate c create faults st "AAUTH".toList [.user demoUser] true false with
  | (st, .error e) => (st, .error e)
  | (st, .ok ()) => genAttsChecked U collate c create faults' st numAtts

end Verif
