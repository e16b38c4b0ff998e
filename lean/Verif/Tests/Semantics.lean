import Verif.Tests.Basic
/-!
# The unit tests of `hgpl/test/test_semantics.py`, restated for the model

 These are tests on single inputs, not proofs: they check that the model agrees with what the authors of the code
recorded. The assertions were carried over from the text of the file by a script that reads it and does not run it.
-/

namespace Verif.Tests

/-! ### `test_simp_ok_atts`, `hgpl/test/test_semantics.py:63` -/

example : passes txt!"env.a = \"cat\" and env.a != \"dog\" or 1.234 = env.b and 5.4234 != env.b" = true := by decide +kernel

example : passes txt!"env.a > 5 and env.a < 1.234 or -1 >= env.a and -0.123 <= env.a or env.a = 0 and env.a != 123.123" = true := by decide +kernel

example : passes txt!"env.a = {1,2,3} and env.a != {} or {\"cat\", \"dog\"} subset env.a and env.a subset {1, 1.234}" = true := by decide +kernel

example : passes txt!"{1,2,3} = env.a and {} != env.a or env.b in {1, 1.234}" = true := by decide +kernel

example : passes txt!"env.a = NULL or env.a != NULL and NULL = env.b and NULL != env.b" = true := by decide +kernel

example : passes txt!"\"cat\" in env.a and 1 in env.b and 1.234 in env.b and NULL in env.c" = true := by decide +kernel

/-! ### `test_ok_ops`, `hgpl/test/test_semantics.py:78` -/

example : passes txt!"1 > 1.235 or 1.234 < 0 or 6 >= -1.234 or 0.034 <= -10 or 100 = 0.0101 or -100.100 != -100" = true := by decide +kernel

example : passes txt!"1 > 12 or 1 < 0 or 6 >= -1 or 34 <= -10 or 100 = 101 or -100 != -100" = true := by decide +kernel

example : passes txt!"1.12 > 1.235 or 1.234 < 0.0 or 6.0 >= -1.234 or 0.034 <= -10.10 or 100.0101 = 0.0101 or -100.100 != -100.01" = true := by decide +kernel

example : passes txt!"\"cat\" = \"dog\" or \"cat\" != \"dog\"" = true := by decide +kernel

example : passes txt!"NULL = NULL and NULL != NULL" = true := by decide +kernel

example : passes txt!"{} = {123} or {1,2,3} != {\"a\", \"b\", \"c\"}" = true := by decide +kernel

example : passes txt!"1 IN {1,2,3} or 1.234 IN {1.1, 2.2, 3.3} or \"cat\" in {} or NULL in {NULL, 1, \"dog\"}" = true := by decide +kernel

example : passes txt!"{} SUBSET {1} or {\"cat\"} SUBSET {\"cat\", \"dog\"} or {1,2,3} SUBSET {1.1, 2.2}" = true := by decide +kernel

/-! ### `test_simp_att_type_errors`, `hgpl/test/test_semantics.py:98` -/

example : checks txt!"env.a = \"cat\" and env.a < 5 or env.b > \"cat\" and env.b = 5.5 and env.c > NULL and env.d <= NULL" 3 1 ["att_check",
    "num_check"] .error = true := by decide +kernel

example : checks txt!"env.a >= {} or env.a != 5 and env.b <= {1,2} or env.b > \"dog\"" 1 1 ["att_check",
    "num_check"] .error = true := by decide +kernel

example : checks txt!"env.a != {\"a\"} and env.a < 1.123 or env.b > 1.234 and env.b >= \"cat\"" 1 1 ["att_check",
    "num_check"] .error = true := by decide +kernel

example : checks txt!"5.5 = env.b or \"cat\" = env.a and 5 < env.a or \"cat\" != env.b" 0 2 ["att_check"] .warn = true := by decide +kernel

example : checks txt!"{} >= env.a or \"dog\" != env.b or 5 != env.a and {1,2} <= env.b" 0 2 ["att_check"] .warn = true := by decide +kernel

example : checks txt!"1.123 < env.a or 1.234 > env.b and \"cat\" = env.b or NULL != env.a" 0 2 ["att_check"] .warn = true := by decide +kernel

example : checks txt!"{} in env.a and {1} in env.b and {1.2, 2.1} in env.c" 3 0 ["in_check"] .error = true := by decide +kernel

/-! ### `test_op_subset_type_errors`, `hgpl/test/test_semantics.py:115` -/

example : checks txt!"\"cat\" SUBSET 5 and \"dog\" SUBSET 1.2 or \"dan\" SUBSET {1,2,3} and \"bob\" SUBSET NULL or -123 SUBSET \"bob\" or 0.43 SUBSET \"alice\" and {1.2, 3.4, 5.6} SUBSET \"hello\" and NULL SUBSET \"world\" and \"string\" SUBSET \"string\"" 9 0 ["subset_check"] .error = true := by decide +kernel

example : checks txt!"1234 SUBSET NULL and -123.34 SUBSET NULL or {1.23, 4.56, 6.3} SUBSET NULL and \"hello world\" SUBSET NULL or NULL SUBSET 1234 and  NULL SUBSET -123.34 or NULL SUBSET {1.23, 4.56, 6.3} and NULL SUBSET \"hello world\" and NULL SUBSET NULL" 9 0 ["subset_check"] .error = true := by decide +kernel

example : checks txt!"{} SUBSET 1 and {1} SUBSET 4.5 and {1,2} SUBSET \"cat\" and {1.1,2.2} SUBSET NULL or 1 SUBSET {\"cat\",\"dog\"} and 0.123 SUBSET {1.2} and \"string\" SUBSET {NULL} and NULL SUBSET {}" 8 0 ["subset_check"] .error = true := by decide +kernel

/-! ### `test_op_in_type_errors`, `hgpl/test/test_semantics.py:129` -/

example : checks txt!"\"cat\" IN 5 and \"dog\" IN 1.2 or \"bob\" IN NULL or -123 IN \"bob\" or 0.43 IN \"alice\" and {1.2, 3.4, 5.6} IN \"hello\" and NULL IN \"world\" and \"string\" IN \"string\"" 8 0 ["in_check"] .error = true := by decide +kernel

example : checks txt!"1234 IN NULL and -123.34 IN NULL or {1.23, 4.56, 6.3} IN NULL and \"hello world\" IN NULL or NULL IN 1234 and  NULL IN -123.34 and NULL IN \"hello world\" and NULL IN NULL" 8 0 ["in_check"] .error = true := by decide +kernel

example : checks txt!"{} IN 1 and {1} IN 4.5 and {1,2} IN \"cat\" and {1.1,2.2} IN NULL and {\"a\"} IN {\"b\"}" 5 0 ["in_check"] .error = true := by decide +kernel

/-! ### `test_op_eq_type_errors`, `hgpl/test/test_semantics.py:140` -/

example : checks txt!"\"cat\" = 5 and \"dog\" != 1.2 or \"dan\" = {1,2,3} and \"bob\" != NULL or -123 = \"bob\" or 0.43 != \"alice\" and {1.2, 3.4, 5.6} = \"hello\" and NULL != \"world\"" 8 0 ["eq_check"] .error = true := by decide +kernel

example : checks txt!"1234 = NULL and -123.34 = NULL or {1.23, 4.56, 6.3} != NULL and \"hello world\" != NULL or NULL = 1234 and  NULL = -123.34 or NULL != {1.23, 4.56, 6.3} and NULL != \"hello world\"" 8 0 ["eq_check"] .error = true := by decide +kernel

example : checks txt!"{} = 1 and {1} != 4.5 and {1,2} = \"cat\" and {1.1,2.2} != NULL or 1 = {\"cat\",\"dog\"} and 0.123 != {1.2} and \"string\" = {NULL} and NULL != {}" 8 0 ["eq_check"] .error = true := by decide +kernel

/-! ### `test_op_num_type_errors`, `hgpl/test/test_semantics.py:152` -/

example : checks txt!"\"cat\" <= 5 and \"dog\" >= 1.2 or \"dan\" < {1,2,3} and \"bob\" > NULL or -123 > \"bob\" or 0.43 < \"alice\" and {1.2, 3.4, 5.6} >= \"hello\" and NULL <= \"world\" and \"string\" > \"string\"" 9 0 ["num_check"] .error = true := by decide +kernel

example : checks txt!"1234 <= NULL and -123.34 >= NULL or {1.23, 4.56, 6.3} < NULL and \"hello world\" > NULL or NULL <= 1234 and  NULL >= -123.34 or NULL < {1.23, 4.56, 6.3} and NULL > \"hello world\" and NULL < NULL" 9 0 ["num_check"] .error = true := by decide +kernel

example : checks txt!"{} > 1 and {1} < 4.5 and {1,2} >= \"cat\" and {1.1,2.2} <= NULL or 1 < {\"cat\",\"dog\"} and 0.123 > {1.2} and \"string\" >= {NULL} and NULL <= {} and {1,2,3} > {\"a\", \"b\", \"c\"}" 9 0 ["num_check"] .error = true := by decide +kernel

/-! ### `test_hgabac_paper_ex_a`, `hgpl/test/test_semantics.py:164` -/

example : passes txt!"user.id IN {5, 72, 4, 6, 4} OR user.id = object.owner" = true := by decide +kernel

/-! ### `test_hgabac_paper_ex_b`, `hgpl/test/test_semantics.py:168` -/

example : passes txt!"object.required_perms SUBSET user.perms AND user.age >= 18" = true := by decide +kernel

/-! ### `test_hgabac_paper_ex_c`, `hgpl/test/test_semantics.py:172` -/

example : passes txt!"user.admin OR (user.role = \"doctor\" AND user.id != object.patient)" = true := by decide +kernel

/-! ### `test_hgabac_paper_case_1`, `hgpl/test/test_semantics.py:176` -/

example : passes txt!"\"undergrad\" IN user.user_type AND ((object.object_type = \"book\" AND NOT object.restricted) OR (object.object_type = \"course\" AND user.enrolled_in IN object.req_course))" = true := by decide +kernel

/-! ### `test_hgabac_paper_case_2`, `hgpl/test/test_semantics.py:181` -/

example : passes txt!"\"grad\" IN user.user_type AND (object.object_type = \"periodical\" OR (object.object_type =\"course\" AND object.req_course IN user.teaching))" = true := by decide +kernel

/-! ### `test_hgabac_paper_case_3`, `hgpl/test/test_semantics.py:186` -/

example : passes txt!"\"faculty\" IN user.user_type AND(object.object_type IN {\"book\", \"periodical\", \"course\"} OR (object.object_type = \"archive\" AND object.depart IN user.depart))" = true := by decide +kernel

/-! ### `test_hgabac_paper_case_4`, `hgpl/test/test_semantics.py:191` -/

example : passes txt!"\"staff\" IN user.user_type AND env.time_of_day_hour >= 8 AND env.time_of_day_hour <= 16 AND env.day_of_week IN {2, 3, 4, 5, 6}" = true := by decide +kernel

/-! ### `test_hgabac_paper_case_5`, `hgpl/test/test_semantics.py:196` -/

example : passes txt!"\"cs_course\" IN user.enrolled_in AND connect.ip_octet_1 = 192 AND connect.ip_octet_2 = 168 AND object.object_type = \"periodical\"" = true := by decide +kernel

end Verif.Tests
