import Verif.Tests.Basic
/-!
# The unit tests of `hgpl/test/test_interpreting.py`, restated for the model

 These are tests on single inputs, not proofs: they check that the model agrees with what the authors of the code
recorded. The assertions were carried over from the text of the file by a script that reads it and does not run it.
-/

namespace Verif.Tests

/-! ### `test_hgabac_paper_ex_a`, `hgpl/test/test_interpreting.py:128` -/

example : evaluates txt!"user.id IN {5, 72, 4, 6, 4} OR user.id = object.owner" .true = true := by decide +kernel

/-! ### `test_hgabac_paper_ex_b`, `hgpl/test/test_interpreting.py:134` -/

example : evaluates txt!"object.required_perms SUBSET user.perms AND user.age >= 18" .true = true := by decide +kernel

/-! ### `test_hgabac_paper_ex_c`, `hgpl/test/test_interpreting.py:140` -/

example : evaluates txt!"user.admin OR (user.role = \"doctor\" AND user.id != object.patient)" .true = true := by decide +kernel

/-! ### `test_hgabac_paper_ex_c_with_parn_inverted`, `hgpl/test/test_interpreting.py:146` -/

example : evaluates txt!"(user.admin OR user.role = \"doctor\") AND user.id != object.patient" .false = true := by decide +kernel

/-! ### `test_hgabac_paper_case_1`, `hgpl/test/test_interpreting.py:152` -/

example : evaluates txt!"\"undergrad\" IN user.user_type AND ((object.object_type = \"book\" AND NOT object.restricted) OR (object.object_type = \"course\" AND user.enrolled_in IN object.req_course))" .false = true := by decide +kernel

/-! ### `test_hgabac_paper_case_2`, `hgpl/test/test_interpreting.py:159` -/

example : evaluates txt!"\"grad\" IN user.user_type AND (object.object_type = \"periodical\" OR (object.object_type =\"course\" AND object.req_course IN user.teaching))" .false = true := by decide +kernel

/-! ### `test_hgabac_paper_case_3`, `hgpl/test/test_interpreting.py:166` -/

example : evaluates txt!"\"faculty\" IN user.user_type AND(object.object_type IN {\"book\", \"periodical\", \"course\"} OR (object.object_type = \"archive\" AND object.depart IN user.depart))" .false = true := by decide +kernel

/-! ### `test_hgabac_paper_case_4`, `hgpl/test/test_interpreting.py:173` -/

example : evaluates txt!"\"staff\" IN user.user_type AND env.time_of_day_hour >= 8 AND env.time_of_day_hour <= 16 AND env.day_of_week IN {2, 3, 4, 5, 6}" .true = true := by decide +kernel

/-! ### `test_hgabac_paper_case_5`, `hgpl/test/test_interpreting.py:180` -/

example : evaluates txt!"\"cs_course\" IN user.enrolled_in AND connect.ip_octet_1 = 192 AND connect.ip_octet_2 = 168 AND object.object_type = \"periodical\"" .false = true := by decide +kernel

/-! ### `test_sets_in`, `hgpl/test/test_interpreting.py:187` -/

example : evaluates txt!"\"CS1032\" IN user.enrolled_in AND user.enrolled_in IN user.enrolled_in AND user.enrolled_in IN {\"CS3090\", \"CS1032\", \"CS1234\"}" .true = true := by decide +kernel

/-! ### `test_missing_att`, `hgpl/test/test_interpreting.py:193` -/

example : evaluates txt!"user.not_an_existing_att_name = 42" .undef = true := by decide +kernel

end Verif.Tests
