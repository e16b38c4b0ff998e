import Verif.Model.SampleData
import Verif.Spec.Authority
/-!
# What the sample data says

The users and attributes of the sample data, as they are meant to be found in certificates.
-/

namespace Verif.Spec

/-- The database tells these texts apart. -/
def TellsApart (collate : Str → Str) (l : List Str) : Prop := ∀ x ∈ l, ∀ y ∈ l, collate x = collate y → x = y

/-- The users. -/
def sampleUsers : List (Int × Str) :=
  [(1, txt!"dan"), (2, txt!"jess"), (3, txt!"alice"), (4, txt!"bob"), (5, txt!"charlie"), (6, txt!"david"), (7, txt!"eve")]

/-- The attributes of the first user, as they are certified. -/
def danCertified : List ACAttribute :=
  [⟨txt!"/attribute/user/admin", .bool, some txt!"TRUE", some txt!"admin", none⟩,
   ⟨txt!"/attribute/user/age", .int, some txt!"31", some txt!"age", none⟩,
   ⟨txt!"/attribute/user/name", .string, some txt!"Daniel Servos", some txt!"name", none⟩,
   ⟨txt!"/attribute/user/account_balance", .float, some txt!"9999.9999", some txt!"account_balance", none⟩,
   ⟨txt!"/attribute/user/courses", .set, some txt!"CS2211,CS2034,CS1234,CS5678,CS9000", some txt!"courses", none⟩,
   ⟨txt!"/attribute/user/registered", .null, some txt!"None", some txt!"registered", none⟩]

/-- The names of the attributes, their ids, and the names of the users. -/
def sampleTexts : List Str :=
  sampleUsers.map Prod.snd ++
  [txt!"user_id", txt!"name", txt!"age", txt!"credits", txt!"year_level", txt!"department", txt!"student_type", txt!"courses",
   txt!"student", txt!"staff", txt!"admin", txt!"office", txt!"account_balance", txt!"registered"].map
    (fun n => txt!"/attribute/user/" ++ n)

/-- The uid of both sample authorities. -/
def sampleUid : Str := txt!"hgabac://localhost:8888"

/-- Unique ids in the sample data of the policy authority. -/
def samplePTexts : List Str :=
  sampleUid :: ["policy/p1", "policy/p2", "policy/p3", "attribute/admin/trust_level", "attribute/admin/admin_user",
    "attribute/environment/pl_ver", "attribute/environment/pa_ver", "attribute/environment/pa_uid",
    "attribute/environment/pa_name"].map (fun n => txt!"hgabc://localhost:8888/" ++ n.toList)

end Verif.Spec
