import Verif.Tests.Basic
/-!
# The unit tests of `hgpl/test/test_ast.py`, restated for the model

Left out: `test_benchmark`, which only measures time. These are tests on single inputs, not proofs: they check that the model agrees with what the authors of the code
recorded. The assertions were carried over from the text of the file by a script that reads it and does not run it.
-/

namespace Verif.Tests

/-! ### `test_enocde_decode_hgabac_paper_ex_a`, `hgpl/test/test_ast.py:114` -/

example : survives txt!"user.id IN {5, 72, 4, 6, 4} OR user.id = object.owner" = true := by decide +kernel

/-! ### `test_enocde_decode_hgabac_paper_ex_b`, `hgpl/test/test_ast.py:117` -/

example : survives txt!"object.required_perms SUBSET user.perms AND user.age >= 18" = true := by decide +kernel

/-! ### `test_enocde_decode_hgabac_paper_ex_c`, `hgpl/test/test_ast.py:120` -/

example : survives txt!"user.admin OR (user.role = \"doctor\" AND user.id != object.patient)" = true := by decide +kernel

/-! ### `test_enocde_decode_hgabac_paper_ex_c_with_parn_inverted`, `hgpl/test/test_ast.py:123` -/

example : survives txt!"(user.admin OR user.role = \"doctor\") AND user.id != object.patient" = true := by decide +kernel

/-! ### `test_enocde_decode_hgabac_paper_case_1`, `hgpl/test/test_ast.py:126` -/

example : survives txt!"\"undergrad\" IN user.user_type AND ((object.object_type = \"book\" AND NOT object.restricted) OR (object.object_type = \"course\" AND user.enrolled_in IN object.req_course))" = true := by decide +kernel

/-! ### `test_enocde_decode_hgabac_paper_case_2`, `hgpl/test/test_ast.py:131` -/

example : survives txt!"\"grad\" IN user.user_type AND (object.object_type = \"periodical\" OR (object.object_type =\"course\" AND object.req_course IN user.teaching))" = true := by decide +kernel

/-! ### `test_enocde_decode_hgabac_paper_case_3`, `hgpl/test/test_ast.py:136` -/

example : survives txt!"\"faculty\" IN user.user_type AND(object.object_type IN {\"book\", \"periodical\", \"course\"} OR (object.object_type = \"archive\" AND object.depart IN user.depart))" = true := by decide +kernel

/-! ### `test_enocde_decode_hgabac_paper_case_4`, `hgpl/test/test_ast.py:141` -/

example : survives txt!"\"staff\" IN user.user_type AND env.time_of_day_hour >= 8 AND env.time_of_day_hour <= 16 AND env.day_of_week IN {2, 3, 4, 5, 6}" = true := by decide +kernel

/-! ### `test_enocde_decode_hgabac_paper_case_5`, `hgpl/test/test_ast.py:146` -/

example : survives txt!"\"cs_course\" IN user.enrolled_in AND connect.ip_octet_1 = 192 AND connect.ip_octet_2 = 168 AND object.object_type = \"periodical\"" = true := by decide +kernel

end Verif.Tests
