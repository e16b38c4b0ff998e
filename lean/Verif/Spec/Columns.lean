import Verif.Spec.Sessions
/-!
# What there is room for in the database of the policy authority

In terms of the request, its certificates and the clock: names and addresses of 100 characters, times before 2^31 seconds
(2038-01-19), certificates of 65535 bytes as they are sent.
-/

namespace Verif.Spec

/-- A session with these certificates can be stored. -/
structure RoomFor (collate : Str → Str) (db : PAuthDb) (env : PAEnv) (serviceUid : Option Str) (exports : Dict Str)
    (sent : List (RawCert × AttCert)) : Prop where
  uid : ∀ u, serviceUid = some u → u.length ≤ 100
  address : ∀ a, exports.get "REMOTE_ADDR".toList = some a → a.length ≤ 100
  time : -2147483648 ≤ env.now ∧ env.now < 2147483648
  /-- one certificate ends in time -/
  ends : ∃ p ∈ sent, p.2.revRules.validBefore < 2147483648
  issued : ∀ p ∈ sent, p.2.info.issued < 2147483648
  /-- certificates that are not stored yet end in time and are not too long -/
  certs : ∀ p ∈ sent, isNew collate db p.2 = true → p.2.revRules.validBefore < 2147483648 ∧ p.1.data.length ≤ 65535

end Verif.Spec
