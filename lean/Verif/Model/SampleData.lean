import Verif.Model.Tools
import Verif.Model.PAuth
import Verif.Py.Txt
/-!
# The sample data of the services, `hgaa/schema/test/test_aauth.py` and `hgaa/schema/test/test_pauth.py`

The rows the commands `populate` and `pop` store, generated from the files. Two numbers given for a column of texts are
stored as texts; the abstract syntax trees of policies, all None, are left out.
-/

namespace Verif

/-- `DB_TEST_SET`, `hgaa/schema/test/test_aauth.py:4-32`. -/
def aauthSample : List AARow :=
  [.user ⟨1, txt!"dan", txt!"$2b$12$QN689kLXzZ.wCmCr8ykOr.lPSoepRtvBZdPHioZYtPTQ9K6ZkWvWq"⟩,
   .user ⟨2, txt!"jess", txt!"$2b$12$zGQE2YzG.IGAy6qsnxCyI.yBJeFSEycPCH.9iuRjn11O2Le9O2LNW"⟩,
   .user ⟨3, txt!"alice", txt!"$2b$12$WTZb9Axx4mOmCmwqtZ.8qu/Z/pUNcsuftJAxloft66M0wCEsA9tO6"⟩,
   .user ⟨4, txt!"bob", txt!"$2b$12$PX3OdDeUgflz9KOJ3aPznuK4gj/aQnPZ96CgIh3J8yX0T0OCmA4Oy"⟩,
   .user ⟨5, txt!"charlie", txt!"$2b$12$c7bvChM0FGg7.ISaMi/jZO9VpDlm8CR2aOnRI7bv6YAb6WCm.ilI2"⟩,
   .user ⟨6, txt!"david", txt!"$2b$12$YdYF3gxSGPi9YOvTLIvu2OGJjlJsRQyZ7/X1LFIEtle72JTQ12/0C"⟩,
   .user ⟨7, txt!"eve", txt!"$2b$12$ztnUuCfMtmaROESHahZPVeHyxbvcyLxMPXY8X9oMMx8XV9wtt.r/6"⟩,
   .attribute ⟨txt!"/attribute/user/user_id", txt!"user_id", .int⟩,
   .attribute ⟨txt!"/attribute/user/name", txt!"name", .string⟩,
   .attribute ⟨txt!"/attribute/user/age", txt!"age", .int⟩,
   .attribute ⟨txt!"/attribute/user/credits", txt!"credits", .float⟩,
   .attribute ⟨txt!"/attribute/user/year_level", txt!"year_level", .int⟩,
   .attribute ⟨txt!"/attribute/user/department", txt!"department", .string⟩,
   .attribute ⟨txt!"/attribute/user/student_type", txt!"student_type", .string⟩,
   .attribute ⟨txt!"/attribute/user/courses", txt!"courses", .set⟩,
   .attribute ⟨txt!"/attribute/user/student", txt!"student", .bool⟩,
   .attribute ⟨txt!"/attribute/user/staff", txt!"staff", .bool⟩,
   .attribute ⟨txt!"/attribute/user/admin", txt!"admin", .bool⟩,
   .attribute ⟨txt!"/attribute/user/office", txt!"office", .string⟩,
   .attribute ⟨txt!"/attribute/user/account_balance", txt!"account_balance", .float⟩,
   .attribute ⟨txt!"/attribute/user/registered", txt!"registered", .null⟩,
   .assignment ⟨1, txt!"/attribute/user/admin", some txt!"TRUE"⟩,
   .assignment ⟨1, txt!"/attribute/user/age", some txt!"31"⟩,
   .assignment ⟨1, txt!"/attribute/user/name", some txt!"Daniel Servos"⟩,
   .assignment ⟨1, txt!"/attribute/user/account_balance", some txt!"9999.9999"⟩,
   .assignment ⟨1, txt!"/attribute/user/courses", some txt!"CS2211,CS2034,CS1234,CS5678,CS9000"⟩,
   .assignment ⟨1, txt!"/attribute/user/registered", none⟩]

/-- A row of `pauth_attributes`, `hgaa/schema/pauth.py:32-37`; nothing reads this table. -/
structure PAAttribute where
  uid : Str
  name : Str
  type : AttType
  value : Str
deriving DecidableEq, Repr

/-- A row of the tables of the policy authority that are filled from outside, `hgaa/schema/pauth.py`; a policy with its name. -/
inductive PARow where
  | authority (a : PAAuthority)
  | policy (name : Str) (p : PAPolicy)
  | attribute (t : PAAttribute)
  | cert (r : ACRow)
  | assignment (r : ACARow)
  | session (r : SessionRow)
deriving DecidableEq, Repr

/-- Which table, and the primary key of a row. -/
def PARow.key (collate : Str → Str) : PARow → Nat × Str × Str
  | .authority a => (0, collate a.uid, [])
  | .policy _ p => (1, collate p.uid, [])
  | .attribute t => (2, collate t.uid, [])
  | .cert r => (3, collate r.serial, [])
  | .assignment r => (4, collate r.acSerial, collate r.sessionId)
  | .session r => (5, collate r.id, [])

/-- The schema of the policy authority. -/
def paTables (collate : Str → Str) : Tables PARow := ⟨fun _ => "pauth".toList, _, inferInstance, PARow.key collate⟩

/-- The rows as the tables `Model/PAuth.lean` reads. -/
def paTablesOf (l : List PARow) : PAuthDb where
  authorities := l.filterMap (fun | .authority a => some a | _ => none)
  policies := l.filterMap (fun | .policy _ p => some p | _ => none)
  certs := l.filterMap (fun | .cert r => some r | _ => none)
  assignments := l.filterMap (fun | .assignment r => some r | _ => none)
  sessions := l.filterMap (fun | .session r => some r | _ => none)

/-- The public key in the sample data, `hgaa/schema/test/test_pauth.py:7-15`. -/
def samplePubKey : Str :=
  txt!"-----BEGIN RSA PUBLIC KEY-----\n" ++
  txt!"MIIBIjANBgkqhkiG9w0BAQEFAAOCAQ8AMIIBCgKCAQEA57+4n5L6qOTHD17aeq87\n" ++
  txt!"mwz+HQoJDySnI9E0d5qv4YcdFvYf4uUHL4SsyKvIGsU6mRchqJCWqax0Xefp2Th+\n" ++
  txt!"x3n9oGZFEY0kbX1nnZ2DNVkApf3u7F/Kcka9Euufm66gRhPS6EtX1go3woX0lYvh\n" ++
  txt!"y6FuNlFnvuwc4eYWcr4I9IB65JE8HuXstW7cVVpuHti/4aI24Hsba8ZEtlN8T3oK\n" ++
  txt!"UpUFGLo+YzQTlySeJ3wPpZBevq3NRC82s7mcFl8B5CEJ1o0e9GPMTjrePMd5QLYO\n" ++
  txt!"+MsZ9y6a1B1w4rogpB4QTtZRdWcLmea4koKnlkOwXY3CZhcvxIdGFPsug8OT2v+z\n" ++
  txt!"dwIDAQAB\n" ++
  txt!"-----END RSA PUBLIC KEY-----"

/-- `DB_TEST_SET`, `hgaa/schema/test/test_pauth.py:4-34`. -/
def pauthSample : List PARow :=
  [.authority ⟨txt!"hgabac://localhost:8888", txt!"localhost", txt!"http://localhost:8888/AttributeAuthority",
      txt!"RSA", 2048, samplePubKey, 100⟩,
   .policy txt!"p1" ⟨txt!"hgabc://localhost:8888/policy/p1", txt!"user.id IN {5, 72, 4, 6, 4} OR user.id = object.owner"⟩,
   .policy txt!"p2" ⟨txt!"hgabc://localhost:8888/policy/p2", txt!"object.required_perms SUBSET user.perms AND user.age >= 18"⟩,
   .policy txt!"p3" ⟨txt!"hgabc://localhost:8888/policy/p3", txt!"user.admin OR (user.role = \"doctor\" AND user.id != object.patient)"⟩,
   .attribute ⟨txt!"hgabc://localhost:8888/attribute/admin/trust_level", txt!"trust_level", .int,
      txt!"50"⟩,
   .attribute ⟨txt!"hgabc://localhost:8888/attribute/admin/admin_user", txt!"admin_user", .string,
      txt!"hgabc://localhost:8888/user/dan"⟩,
   .attribute ⟨txt!"hgabc://localhost:8888/attribute/environment/pl_ver", txt!"pl_ver", .int,
      txt!"1"⟩,
   .attribute ⟨txt!"hgabc://localhost:8888/attribute/environment/pa_ver", txt!"pa_ver", .int,
      txt!"1"⟩,
   .attribute ⟨txt!"hgabc://localhost:8888/attribute/environment/pa_uid", txt!"pa_uid", .string,
      txt!"hgabc://localhost:8888"⟩,
   .attribute ⟨txt!"hgabc://localhost:8888/attribute/environment/pa_name", txt!"pa_name", .string,
      txt!"localhost:8888"⟩]

end Verif
