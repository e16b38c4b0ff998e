import Verif.Model.PolicyGui
/-!
# Model of the example data of the policy demo, `LexerDemo` of `hgpl/gui/demos.py`

The policies and the symbol table the demo is opened with if none are given. The window itself is in `PolicyGui`.
Elements of sets are listed as they are written.
-/

namespace Verif.DemoData
open Verif

/-- `default_policies`, `hgpl/gui/demos.py:462-466`. -/
def policies : List Str :=
  ["user.id IN {5, 72, 4, 6, 4} OR user.id = object.owner".toList,
   "object.required_perms SUBSET user.perms AND user.age >= 18".toList,
   "user.admin OR (user.role = \"doctor\" AND user.id != object.patient)".toList]

/-- The types of `default_symbol_table`, `hgpl/gui/demos.py:470-499`. -/
def types : Dict SymType :=
  [("user.id".toList, .int), ("object.owner".toList, .int), ("object.required_perms".toList, .set), ("user.perms".toList, .set),
   ("user.age".toList, .int), ("user.admin".toList, .bool), ("user.role".toList, .string), ("object.patient".toList, .int),
   ("user.user_type".toList, .set), ("object.object_type".toList, .string), ("object.restricted".toList, .bool),
   ("user.enrolled_in".toList, .set), ("object.req_course".toList, .set), ("user.teaching".toList, .set),
   ("object.depart".toList, .set), ("user.depart".toList, .set), ("env.time_of_day_hour".toList, .int),
   ("env.day_of_week".toList, .int), ("connect.ip_octet_1".toList, .int), ("connect.ip_octet_2".toList, .int),
   ("connect.ip_octet_3".toList, .int), ("connect.ip_octet_4".toList, .int), ("user.string".toList, .string),
   ("user.float".toList, .float), ("user.int".toList, .int), ("user.set".toList, .set), ("admin.string".toList, .string),
   ("admin.int".toList, .int), ("admin.float".toList, .float), ("admin.set".toList, .set)]

private def int (i : Int) : PyVal := .sc (.atom (.int i))
private def text (s : String) : PyVal := .sc (.atom (.str s.toList))
private def ints (l : List Int) : PyVal := .set (l.map fun i => .atom (.int i))
private def strs (l : List String) : PyVal := .set (l.map fun s => .atom (.str s.toList))

/-- The values of `default_symbol_table`, `hgpl/gui/demos.py:503-532`; `3.14` and `-1.1` are the nearest binary64 numbers. -/
def values : Dict PyVal :=
  [("user.id".toList, int 1337), ("object.owner".toList, int 1337), ("object.required_perms".toList, ints [1, 5, 3]),
   ("user.perms".toList, ints [2, 5, 4, 3, 0, 1]), ("user.age".toList, int 30), ("user.admin".toList, .sc (.bool true)),
   ("user.role".toList, text "admin"), ("object.patient".toList, int 1337),
   ("user.user_type".toList, strs ["admin", "grad", "staff"]), ("object.object_type".toList, text "book"),
   ("object.restricted".toList, .sc (.bool false)), ("user.enrolled_in".toList, strs ["CS1032", "CS2034"]),
   ("object.req_course".toList, strs ["CS4030", "CS2034"]), ("user.teaching".toList, strs ["CS3090", "CS1032"]),
   ("object.depart".toList, strs ["COMPSCI", "SOFTENG"]), ("user.depart".toList, strs ["COMPSCI"]),
   ("env.time_of_day_hour".toList, int 9), ("env.day_of_week".toList, int 4), ("connect.ip_octet_1".toList, int 192),
   ("connect.ip_octet_2".toList, int 168), ("connect.ip_octet_3".toList, int 1), ("connect.ip_octet_4".toList, int 110),
   ("user.string".toList, text "hello world"),
   ("user.float".toList, .sc (.atom (.flt (.fin (7070651414971679 / 2251799813685248))))), ("user.int".toList, int 3),
   ("user.set".toList, ints [1, 2, 3]), ("admin.string".toList, text "this is an admin string att"),
   ("admin.int".toList, int (-1234)),
   ("admin.float".toList, .sc (.atom (.flt (.fin (-2476979795053773 / 2251799813685248))))),
   ("admin.set".toList, strs ["this", "is", "a", "set in an admin", "att"])]

/-- `default_symbol_table`, `hgpl/gui/demos.py:469-535`. -/
def table (U : Uni) : SymEnv :=
  let built := (({ types := types } : Builder).load values).1.build U (fun _ => Symbol.new U [] none none (.sc .none)) 0
  ⟨built.2, built.1⟩

/-- The frame as `LexerDemo.run` opens it, `hgpl/gui/demos.py:452-460` and `:537-542`, with a text in the combo box. -/
def opened (U : Uni) (text : Str) : PolicyGui := { text := text, env := table U }

end Verif.DemoData
