import Verif.Tests.Basic
/-!
# The unit tests of `hgpl/test/test_parsing.py`, restated for the model

These are tests on single inputs, not proofs: they check that the model agrees with what the authors of the code
recorded. The assertions were carried over from the text of the file by a script that reads it and does not run it.
-/

namespace Verif.Tests

/-! ### `test_set_errors`, `hgpl/test/test_parsing.py:39` -/

example : parseFails txt!"{TRUE} = env.a" (tkS .bool 1 txt!"TRUE") 1 "atomic" = true := by decide +kernel

example : parseFails txt!"{1, FALSE} = env.b" (tkS .bool 4 txt!"FALSE") 4 "atomic" = true := by decide +kernel

example : parseFails txt!"{1, UNDEF, 3} = env.c" (tkS .bool 4 txt!"UNDEF") 4 "atomic" = true := by decide +kernel

example : parseFails txt!"{1, TRUE} = env.d" (tkS .bool 4 txt!"TRUE") 4 "atomic" = true := by decide +kernel

example : parseFails txt!"{AND} = env.e" (tkS .boolOp 1 txt!"AND") 1 "atomic" = true := by decide +kernel

example : parseFails txt!"{5.5, OR} = env.f" (tkS .boolOp 6 txt!"OR") 6 "atomic" = true := by decide +kernel

example : parseFails txt!"{NOT, -4.5} = env.g" (tkS .notOp 1 txt!"NOT") 1 "atomic" = true := by decide +kernel

example : parseFails txt!"{=} = env.h" (tkS .op 1 txt!"=") 1 "atomic" = true := by decide +kernel

example : parseFails txt!"{1, IN} = env.i" (tkS .op 4 txt!"IN") 4 "atomic" = true := by decide +kernel

example : parseFails txt!"{SUBSET, \"cat\"} = env.j" (tkS .op 1 txt!"SUBSET") 1 "atomic" = true := by decide +kernel

example : parseFails txt!"{1, >=, 2} = env.k" (tkS .op 4 txt!">=") 4 "atomic" = true := by decide +kernel

example : parseFails txt!"{user.1} = env.l" (tkS .usrAtt 1 txt!"1") 1 "atomic" = true := by decide +kernel

example : parseFails txt!"{1, env.1} = env.m" (tkS .envAtt 4 txt!"1") 4 "atomic" = true := by decide +kernel

example : parseFails txt!"{object.1, 2} = env.n" (tkS .objAtt 1 txt!"1") 1 "atomic" = true := by decide +kernel

example : parseFails txt!"{1, admin.1, 2} = env.o" (tkS .admAtt 4 txt!"1") 4 "atomic" = true := by decide +kernel

example : parseFails txt!"{,} = env.p" (tk .comma 1) 1 "atomic" = true := by decide +kernel

example : parseFails txt!"{,,} = env.q" (tk .comma 1) 1 "atomic" = true := by decide +kernel

example : parseFails txt!"{1,} = env.r" (tk .rset 3) 3 "atomic" = true := by decide +kernel

example : parseFails txt!"{,1} = env.s" (tk .comma 1) 1 "atomic" = true := by decide +kernel

example : parseFails txt!"{1 1} = env.t" ⟨.int, 3, .int 1⟩ 3 "set" = true := by decide +kernel

example : parseFails txt!"{(1)} = env.u" (tk .lparn 1) 1 "atomic" = true := by decide +kernel

/-! ### `test_parn_errors`, `hgpl/test/test_parsing.py:84` -/

example : parseFails txt!"(user.missing_parn_right" (tk .«end» 24) 24 "exp" = true := by decide +kernel

example : parseFails txt!"user.missing_parn_left)" (tk .rparn 22) 22 "parse" = true := by decide +kernel

example : parseFails txt!"user.AND_parns (AND) admin.AND_parns" (tk .lparn 15) 15 "parse" = true := by decide +kernel

example : parseFails txt!"(env.mixmatch_parns_left() OR object.mixmatch_parns_left)" (tk .lparn 24) 24 "exp" = true := by decide +kernel

example : parseFails txt!"(env.mixmatch_parns_right OR ()object.mixmatch_parns_right)" (tk .rparn 30) 30 "exp" = true := by decide +kernel

example : parseFails txt!"()" (tk .rparn 1) 1 "exp" = true := by decide +kernel

example : parseFails txt!"env.empty_parns AND ()" (tk .rparn 21) 21 "exp" = true := by decide +kernel

example : parseFails txt!"NOT ()" (tk .rparn 5) 5 "exp" = true := by decide +kernel

example : parseFails txt!"(((TRUE AND FALSE) OR TRUE) AND UNDEF" (tk .«end» 37) 37 "exp" = true := by decide +kernel

example : parseFails txt!"TRUE AND (FALSE OR (TRUE AND UNDEF)))" (tk .rparn 36) 36 "parse" = true := by decide +kernel

example : parseFails txt!"TRUE AND ((FALSE OR TRUE) AND UNDEF" (tk .«end» 35) 35 "exp" = true := by decide +kernel

example : parseFails txt!"TRUE AND (FALSE OR (TRUE AND UNDEF)))" (tk .rparn 36) 36 "parse" = true := by decide +kernel

/-! ### `test_bool_op_errors`, `hgpl/test/test_parsing.py:111` -/

example : parseFails txt!"TRUE = FALSE" (tkS .op 5 txt!"=") 5 "parse" = true := by decide +kernel

example : parseFails txt!"UNDEF >= TRUE" (tkS .op 6 txt!">=") 6 "parse" = true := by decide +kernel

example : parseFails txt!"FALSE <= UNDEF" (tkS .op 6 txt!"<=") 6 "parse" = true := by decide +kernel

example : parseFails txt!"UNDEF > UNDEF" (tkS .op 6 txt!">") 6 "parse" = true := by decide +kernel

example : parseFails txt!"FALSE < FALSE" (tkS .op 6 txt!"<") 6 "parse" = true := by decide +kernel

example : parseFails txt!"TRUE != TRUE" (tkS .op 5 txt!"!=") 5 "parse" = true := by decide +kernel

example : parseFails txt!"TRUE IN FALSE" (tkS .op 5 txt!"IN") 5 "parse" = true := by decide +kernel

example : parseFails txt!"FALSE SUBSET TRUE" (tkS .op 6 txt!"SUBSET") 6 "parse" = true := by decide +kernel

example : parseFails txt!"AND = OR" (tkS .boolOp 0 txt!"AND") 0 "exp" = true := by decide +kernel

example : parseFails txt!"user.a >= OR" (tkS .boolOp 10 txt!"OR") 10 "var" = true := by decide +kernel

example : parseFails txt!"AND <= user.b" (tkS .boolOp 0 txt!"AND") 0 "exp" = true := by decide +kernel

example : parseFails txt!"NOT IN 5" (tkS .op 4 txt!"IN") 4 "att_name" = true := by decide +kernel

example : parseFails txt!"8.8 IN NOT" (tkS .notOp 7 txt!"NOT") 7 "var" = true := by decide +kernel

example : parseFails txt!"\"cat\" > FALSE" (tkS .bool 8 txt!"FALSE") 8 "var" = true := by decide +kernel

example : parseFails txt!"TRUE < \"dog\"" (tkS .op 5 txt!"<") 5 "parse" = true := by decide +kernel

example : parseFails txt!"NOT(TRUE) != env.a" (tkS .op 10 txt!"!=") 10 "parse" = true := by decide +kernel

example : parseFails txt!"env.b = NOT(FALSE)" (tkS .notOp 8 txt!"NOT") 8 "var" = true := by decide +kernel

example : parseFails txt!"NOT(AND)" (tkS .boolOp 4 txt!"AND") 4 "exp" = true := by decide +kernel

example : parseFails txt!"NOT(OR)" (tkS .boolOp 4 txt!"OR") 4 "exp" = true := by decide +kernel

example : parseFails txt!"NOT(NOT)" (tk .rparn 7) 7 "att_name" = true := by decide +kernel

example : parseFails txt!"NOT(NOT())" (tk .rparn 8) 8 "exp" = true := by decide +kernel

/-! ### `test_ops`, `hgpl/test/test_parsing.py:157` -/

example : parses txt!"env.a = 0 OR env.b > 1 OR env.c < 2 OR env.d <= 3 OR env.e >= 4 OR env.f != 5" (nd .boolOp (tkS .boolOp 64 txt!"OR") [nd .boolOp (tkS .boolOp 50 txt!"OR") [nd .boolOp (tkS .boolOp 36 txt!"OR") [nd .boolOp (tkS .boolOp 23 txt!"OR") [nd .boolOp (tkS .boolOp 10 txt!"OR") [nd .op (tkS .op 6 txt!"=") [nd .envAtt (tkS .envAtt 0 txt!"a") [],
    nd .intVal (tkI 8 0) []], nd .op (tkS .op 19 txt!">") [nd .envAtt (tkS .envAtt 13 txt!"b") [],
    nd .intVal (tkI 21 1) []]], nd .op (tkS .op 32 txt!"<") [nd .envAtt (tkS .envAtt 26 txt!"c") [],
    nd .intVal (tkI 34 2) []]], nd .op (tkS .op 45 txt!"<=") [nd .envAtt (tkS .envAtt 39 txt!"d") [],
    nd .intVal (tkI 48 3) []]], nd .op (tkS .op 59 txt!">=") [nd .envAtt (tkS .envAtt 53 txt!"e") [],
    nd .intVal (tkI 62 4) []]], nd .op (tkS .op 73 txt!"!=") [nd .envAtt (tkS .envAtt 67 txt!"f") [],
    nd .intVal (tkI 76 5) []]]) = true := by decide +kernel

example : parses txt!"env.a = env._a OR env.b > env._b OR env.c < env._c OR env.d <= env._d OR env.e >= env._e OR env.f != env._f" (nd .boolOp (tkS .boolOp 89 txt!"OR") [nd .boolOp (tkS .boolOp 70 txt!"OR") [nd .boolOp (tkS .boolOp 51 txt!"OR") [nd .boolOp (tkS .boolOp 33 txt!"OR") [nd .boolOp (tkS .boolOp 15 txt!"OR") [nd .op (tkS .op 6 txt!"=") [nd .envAtt (tkS .envAtt 0 txt!"a") [],
    nd .envAtt (tkS .envAtt 8 txt!"_a") []], nd .op (tkS .op 24 txt!">") [nd .envAtt (tkS .envAtt 18 txt!"b") [],
    nd .envAtt (tkS .envAtt 26 txt!"_b") []]], nd .op (tkS .op 42 txt!"<") [nd .envAtt (tkS .envAtt 36 txt!"c") [],
    nd .envAtt (tkS .envAtt 44 txt!"_c") []]], nd .op (tkS .op 60 txt!"<=") [nd .envAtt (tkS .envAtt 54 txt!"d") [],
    nd .envAtt (tkS .envAtt 63 txt!"_d") []]], nd .op (tkS .op 79 txt!">=") [nd .envAtt (tkS .envAtt 73 txt!"e") [],
    nd .envAtt (tkS .envAtt 82 txt!"_e") []]], nd .op (tkS .op 98 txt!"!=") [nd .envAtt (tkS .envAtt 92 txt!"f") [],
    nd .envAtt (tkS .envAtt 101 txt!"_f") []]]) = true := by decide +kernel

example : parses txt!"env.1 IN {1,2,3} AND env.2 IN env._2 AND env.3 SUBSET {1,2,3} AND env.3 SUBSET env._3" (nd .boolOp (tkS .boolOp 62 txt!"AND") [nd .boolOp (tkS .boolOp 37 txt!"AND") [nd .boolOp (tkS .boolOp 17 txt!"AND") [nd .op (tkS .op 6 txt!"IN") [nd .envAtt (tkS .envAtt 0 txt!"1") [],
    nd .set (tk .lset 9) [nd .intVal (tkI 10 1) [], nd .intVal (tkI 12 2) [], nd .intVal (tkI 14 3) []]],
    nd .op (tkS .op 27 txt!"IN") [nd .envAtt (tkS .envAtt 21 txt!"2") [], nd .envAtt (tkS .envAtt 30 txt!"_2") []]],
    nd .op (tkS .op 47 txt!"SUBSET") [nd .envAtt (tkS .envAtt 41 txt!"3") [],
    nd .set (tk .lset 54) [nd .intVal (tkI 55 1) [], nd .intVal (tkI 57 2) [], nd .intVal (tkI 59 3) []]]],
    nd .op (tkS .op 72 txt!"SUBSET") [nd .envAtt (tkS .envAtt 66 txt!"3") [],
    nd .envAtt (tkS .envAtt 79 txt!"_3") []]]) = true := by decide +kernel

/-! ### `test_nums_and_atts`, `hgpl/test/test_parsing.py:237` -/

example : parses txt!"user.a = 1 AND object.1 = 0 AND connect.a1 = -1 AND admin._ = 0.1 AND env._abc_123_ = -010.00234567890" (nd .boolOp (tkS .boolOp 66 txt!"AND") [nd .boolOp (tkS .boolOp 48 txt!"AND") [nd .boolOp (tkS .boolOp 28 txt!"AND") [nd .boolOp (tkS .boolOp 11 txt!"AND") [nd .op (tkS .op 7 txt!"=") [nd .usrAtt (tkS .usrAtt 0 txt!"a") [],
    nd .intVal (tkI 9 1) []], nd .op (tkS .op 24 txt!"=") [nd .objAtt (tkS .objAtt 15 txt!"1") [],
    nd .intVal (tkI 26 0) []]], nd .op (tkS .op 43 txt!"=") [nd .conAtt (tkS .conAtt 32 txt!"a1") [],
    nd .intVal (tkI 45 (-1)) []]], nd .op (tkS .op 60 txt!"=") [nd .admAtt (tkS .admAtt 52 txt!"_") [],
    nd .floatVal (tkF 62 (1 / 10 : Rat)) []]],
    nd .op (tkS .op 84 txt!"=") [nd .envAtt (tkS .envAtt 70 txt!"_abc_123_") [],
    nd .floatVal (tkF 86 (-100023456789 / 10000000000 : Rat)) []]]) = true := by decide +kernel

example : parses txt!"env.stringz_1234567890_ABCDEFG = \"HELLO WORLD! 1234567890 !@#$%^&*()_+-=[]{}\\|;':,./<>?`~ abcdzxy\"" (nd .op (tkS .op 31 txt!"=") [nd .envAtt (tkS .envAtt 0 txt!"stringz_1234567890_ABCDEFG") [],
    nd .stringVal (tkS .string 33 txt!"HELLO WORLD! 1234567890 !@#$%^&*()_+-=[]{}\\|;':,./<>?`~ abcdzxy") []]) = true := by decide +kernel

example : parses txt!"admin.00000 = NULL OR user.____ = 9999999 OR connect.aaaaaa = 0.000001 OR env.AAAAA = -0.000001 OR object.99999 = -9999999" (nd .boolOp (tkS .boolOp 96 txt!"OR") [nd .boolOp (tkS .boolOp 71 txt!"OR") [nd .boolOp (tkS .boolOp 42 txt!"OR") [nd .boolOp (tkS .boolOp 19 txt!"OR") [nd .op (tkS .op 12 txt!"=") [nd .admAtt (tkS .admAtt 0 txt!"00000") [],
    nd .nullVal (tkS .null 14 txt!"NULL") []], nd .op (tkS .op 32 txt!"=") [nd .usrAtt (tkS .usrAtt 22 txt!"____") [],
    nd .intVal (tkI 34 9999999) []]], nd .op (tkS .op 60 txt!"=") [nd .conAtt (tkS .conAtt 45 txt!"aaaaaa") [],
    nd .floatVal (tkF 62 (1 / 1000000 : Rat)) []]],
    nd .op (tkS .op 84 txt!"=") [nd .envAtt (tkS .envAtt 74 txt!"AAAAA") [],
    nd .floatVal (tkF 86 (-1 / 1000000 : Rat)) []]],
    nd .op (tkS .op 112 txt!"=") [nd .objAtt (tkS .objAtt 99 txt!"99999") [],
    nd .intVal (tkI 114 (-9999999)) []]]) = true := by decide +kernel

/-! ### `test_simple_parns`, `hgpl/test/test_parsing.py:291` -/

example : parses txt!"( TRUE )" (nd .boolVal (tkS .bool 2 txt!"TRUE") []) = true := by decide +kernel

example : parses txt!"((FALSE))" (nd .boolVal (tkS .bool 2 txt!"FALSE") []) = true := by decide +kernel

example : parses txt!"( ( ( ( ( ( ( ( ( ( UNDEF ))))))))))" (nd .boolVal (tkS .bool 20 txt!"UNDEF") []) = true := by decide +kernel

example : parses txt!"NOT(TRUE)" (nd .not (tkS .notOp 0 txt!"NOT") [nd .boolVal (tkS .bool 4 txt!"TRUE") []]) = true := by decide +kernel

example : parses txt!"NOT(NOT(FALSE))" (nd .not (tkS .notOp 0 txt!"NOT") [nd .not (tkS .notOp 4 txt!"NOT") [nd .boolVal (tkS .bool 8 txt!"FALSE") []]]) = true := by decide +kernel

example : parses txt!"NOT( ( NOT( ( ( NOT( NOT( ( NOT( ( UNDEF ))))))))))" (nd .not (tkS .notOp 0 txt!"NOT") [nd .not (tkS .notOp 7 txt!"NOT") [nd .not (tkS .notOp 16 txt!"NOT") [nd .not (tkS .notOp 21 txt!"NOT") [nd .not (tkS .notOp 28 txt!"NOT") [nd .boolVal (tkS .bool 35 txt!"UNDEF") []]]]]]) = true := by decide +kernel

/-! ### `test_complex_parns`, `hgpl/test/test_parsing.py:325` -/

example : parses txt!"(user.bool OR admin.bool) AND (connect.bool OR env.bool)" (nd .boolOp (tkS .boolOp 26 txt!"AND") [nd .boolOp (tkS .boolOp 11 txt!"OR") [nd .usrAtt (tkS .usrAtt 1 txt!"bool") [],
    nd .admAtt (tkS .admAtt 14 txt!"bool") []],
    nd .boolOp (tkS .boolOp 44 txt!"OR") [nd .conAtt (tkS .conAtt 31 txt!"bool") [],
    nd .envAtt (tkS .envAtt 47 txt!"bool") []]]) = true := by decide +kernel

example : parses txt!"(user.bool OR admin.bool) AND connect.bool OR env.bool" (nd .boolOp (tkS .boolOp 43 txt!"OR") [nd .boolOp (tkS .boolOp 26 txt!"AND") [nd .boolOp (tkS .boolOp 11 txt!"OR") [nd .usrAtt (tkS .usrAtt 1 txt!"bool") [],
    nd .admAtt (tkS .admAtt 14 txt!"bool") []], nd .conAtt (tkS .conAtt 30 txt!"bool") []],
    nd .envAtt (tkS .envAtt 46 txt!"bool") []]) = true := by decide +kernel

example : parses txt!"user.bool OR admin.bool AND (connect.bool OR env.bool)" (nd .boolOp (tkS .boolOp 10 txt!"OR") [nd .usrAtt (tkS .usrAtt 0 txt!"bool") [],
    nd .boolOp (tkS .boolOp 24 txt!"AND") [nd .admAtt (tkS .admAtt 13 txt!"bool") [],
    nd .boolOp (tkS .boolOp 42 txt!"OR") [nd .conAtt (tkS .conAtt 29 txt!"bool") [],
    nd .envAtt (tkS .envAtt 45 txt!"bool") []]]]) = true := by decide +kernel

example : parses txt!"user.bool OR (admin.bool AND connect.bool) OR env.bool" (nd .boolOp (tkS .boolOp 43 txt!"OR") [nd .boolOp (tkS .boolOp 10 txt!"OR") [nd .usrAtt (tkS .usrAtt 0 txt!"bool") [],
    nd .boolOp (tkS .boolOp 25 txt!"AND") [nd .admAtt (tkS .admAtt 14 txt!"bool") [],
    nd .conAtt (tkS .conAtt 29 txt!"bool") []]], nd .envAtt (tkS .envAtt 46 txt!"bool") []]) = true := by decide +kernel

example : parses txt!"(user.bool OR admin.bool AND connect.bool) OR env.bool" (nd .boolOp (tkS .boolOp 43 txt!"OR") [nd .boolOp (tkS .boolOp 11 txt!"OR") [nd .usrAtt (tkS .usrAtt 1 txt!"bool") [],
    nd .boolOp (tkS .boolOp 25 txt!"AND") [nd .admAtt (tkS .admAtt 14 txt!"bool") [],
    nd .conAtt (tkS .conAtt 29 txt!"bool") []]], nd .envAtt (tkS .envAtt 46 txt!"bool") []]) = true := by decide +kernel

example : parses txt!"user.bool OR (admin.bool AND connect.bool OR env.bool)" (nd .boolOp (tkS .boolOp 10 txt!"OR") [nd .usrAtt (tkS .usrAtt 0 txt!"bool") [],
    nd .boolOp (tkS .boolOp 42 txt!"OR") [nd .boolOp (tkS .boolOp 25 txt!"AND") [nd .admAtt (tkS .admAtt 14 txt!"bool") [],
    nd .conAtt (tkS .conAtt 29 txt!"bool") []], nd .envAtt (tkS .envAtt 45 txt!"bool") []]]) = true := by decide +kernel

example : parses txt!"(((((user.bool) OR ((admin.bool)))) AND (((connect.bool) OR (env.bool)))))" (nd .boolOp (tkS .boolOp 36 txt!"AND") [nd .boolOp (tkS .boolOp 16 txt!"OR") [nd .usrAtt (tkS .usrAtt 5 txt!"bool") [],
    nd .admAtt (tkS .admAtt 21 txt!"bool") []],
    nd .boolOp (tkS .boolOp 57 txt!"OR") [nd .conAtt (tkS .conAtt 43 txt!"bool") [],
    nd .envAtt (tkS .envAtt 61 txt!"bool") []]]) = true := by decide +kernel

example : parses txt!"user.1 >= 5 AND (user.2 = 3 OR (user.3 = 4 OR (user.4 = 5 OR (user.6 = 7 OR (user.8 = 9 AND object.8 = 5) OR object.6 = 7) AND object.4 = 5) OR object.3 = 4) AND NOT (user.2 = 3)) OR object.1 <= 5" (nd .boolOp (tkS .boolOp 180 txt!"OR") [nd .boolOp (tkS .boolOp 12 txt!"AND") [nd .op (tkS .op 7 txt!">=") [nd .usrAtt (tkS .usrAtt 0 txt!"1") [],
    nd .intVal (tkI 10 5) []],
    nd .boolOp (tkS .boolOp 28 txt!"OR") [nd .op (tkS .op 24 txt!"=") [nd .usrAtt (tkS .usrAtt 17 txt!"2") [],
    nd .intVal (tkI 26 3) []],
    nd .boolOp (tkS .boolOp 158 txt!"AND") [nd .boolOp (tkS .boolOp 141 txt!"OR") [nd .boolOp (tkS .boolOp 43 txt!"OR") [nd .op (tkS .op 39 txt!"=") [nd .usrAtt (tkS .usrAtt 32 txt!"3") [],
    nd .intVal (tkI 41 4) []],
    nd .boolOp (tkS .boolOp 58 txt!"OR") [nd .op (tkS .op 54 txt!"=") [nd .usrAtt (tkS .usrAtt 47 txt!"4") [],
    nd .intVal (tkI 56 5) []],
    nd .boolOp (tkS .boolOp 123 txt!"AND") [nd .boolOp (tkS .boolOp 106 txt!"OR") [nd .boolOp (tkS .boolOp 73 txt!"OR") [nd .op (tkS .op 69 txt!"=") [nd .usrAtt (tkS .usrAtt 62 txt!"6") [],
    nd .intVal (tkI 71 7) []],
    nd .boolOp (tkS .boolOp 88 txt!"AND") [nd .op (tkS .op 84 txt!"=") [nd .usrAtt (tkS .usrAtt 77 txt!"8") [],
    nd .intVal (tkI 86 9) []], nd .op (tkS .op 101 txt!"=") [nd .objAtt (tkS .objAtt 92 txt!"8") [],
    nd .intVal (tkI 103 5) []]]], nd .op (tkS .op 118 txt!"=") [nd .objAtt (tkS .objAtt 109 txt!"6") [],
    nd .intVal (tkI 120 7) []]], nd .op (tkS .op 136 txt!"=") [nd .objAtt (tkS .objAtt 127 txt!"4") [],
    nd .intVal (tkI 138 5) []]]]], nd .op (tkS .op 153 txt!"=") [nd .objAtt (tkS .objAtt 144 txt!"3") [],
    nd .intVal (tkI 155 4) []]],
    nd .not (tkS .notOp 162 txt!"NOT") [nd .op (tkS .op 174 txt!"=") [nd .usrAtt (tkS .usrAtt 167 txt!"2") [],
    nd .intVal (tkI 176 3) []]]]]], nd .op (tkS .op 192 txt!"<=") [nd .objAtt (tkS .objAtt 183 txt!"1") [],
    nd .intVal (tkI 195 5) []]]) = true := by decide +kernel

example : parses txt!"((((((((((((user.1 >= 5) AND user.2 = 3) OR user.3 = 4) OR user.4 = 5) OR user.6 = 7) OR user.8 = 9) AND object.8 = 5) OR object.6 = 7) AND object.4 = 5) OR object.3 = 4) AND NOT (user.2 = 3)) OR object.1 <= 5)" (nd .boolOp (tkS .boolOp 193 txt!"OR") [nd .boolOp (tkS .boolOp 171 txt!"AND") [nd .boolOp (tkS .boolOp 154 txt!"OR") [nd .boolOp (tkS .boolOp 136 txt!"AND") [nd .boolOp (tkS .boolOp 119 txt!"OR") [nd .boolOp (tkS .boolOp 101 txt!"AND") [nd .boolOp (tkS .boolOp 86 txt!"OR") [nd .boolOp (tkS .boolOp 71 txt!"OR") [nd .boolOp (tkS .boolOp 56 txt!"OR") [nd .boolOp (tkS .boolOp 41 txt!"OR") [nd .boolOp (tkS .boolOp 25 txt!"AND") [nd .op (tkS .op 19 txt!">=") [nd .usrAtt (tkS .usrAtt 12 txt!"1") [],
    nd .intVal (tkI 22 5) []], nd .op (tkS .op 36 txt!"=") [nd .usrAtt (tkS .usrAtt 29 txt!"2") [],
    nd .intVal (tkI 38 3) []]], nd .op (tkS .op 51 txt!"=") [nd .usrAtt (tkS .usrAtt 44 txt!"3") [],
    nd .intVal (tkI 53 4) []]], nd .op (tkS .op 66 txt!"=") [nd .usrAtt (tkS .usrAtt 59 txt!"4") [],
    nd .intVal (tkI 68 5) []]], nd .op (tkS .op 81 txt!"=") [nd .usrAtt (tkS .usrAtt 74 txt!"6") [],
    nd .intVal (tkI 83 7) []]], nd .op (tkS .op 96 txt!"=") [nd .usrAtt (tkS .usrAtt 89 txt!"8") [],
    nd .intVal (tkI 98 9) []]], nd .op (tkS .op 114 txt!"=") [nd .objAtt (tkS .objAtt 105 txt!"8") [],
    nd .intVal (tkI 116 5) []]], nd .op (tkS .op 131 txt!"=") [nd .objAtt (tkS .objAtt 122 txt!"6") [],
    nd .intVal (tkI 133 7) []]], nd .op (tkS .op 149 txt!"=") [nd .objAtt (tkS .objAtt 140 txt!"4") [],
    nd .intVal (tkI 151 5) []]], nd .op (tkS .op 166 txt!"=") [nd .objAtt (tkS .objAtt 157 txt!"3") [],
    nd .intVal (tkI 168 4) []]],
    nd .not (tkS .notOp 175 txt!"NOT") [nd .op (tkS .op 187 txt!"=") [nd .usrAtt (tkS .usrAtt 180 txt!"2") [],
    nd .intVal (tkI 189 3) []]]], nd .op (tkS .op 205 txt!"<=") [nd .objAtt (tkS .objAtt 196 txt!"1") [],
    nd .intVal (tkI 208 5) []]]) = true := by decide +kernel

example : parses txt!"(user.1 >= 5 AND (user.2 = 3 OR (user.3 = 4 OR (user.4 = 5 OR (user.6 = 7 OR (user.8 = 9 AND (object.8 = 5 OR (object.6 = 7 AND (object.4 = 5 OR (object.3 = 4 AND (NOT (user.2 = 3) OR (object.1 <= 5))))))))))))" (nd .boolOp (tkS .boolOp 13 txt!"AND") [nd .op (tkS .op 8 txt!">=") [nd .usrAtt (tkS .usrAtt 1 txt!"1") [],
    nd .intVal (tkI 11 5) []],
    nd .boolOp (tkS .boolOp 29 txt!"OR") [nd .op (tkS .op 25 txt!"=") [nd .usrAtt (tkS .usrAtt 18 txt!"2") [],
    nd .intVal (tkI 27 3) []],
    nd .boolOp (tkS .boolOp 44 txt!"OR") [nd .op (tkS .op 40 txt!"=") [nd .usrAtt (tkS .usrAtt 33 txt!"3") [],
    nd .intVal (tkI 42 4) []],
    nd .boolOp (tkS .boolOp 59 txt!"OR") [nd .op (tkS .op 55 txt!"=") [nd .usrAtt (tkS .usrAtt 48 txt!"4") [],
    nd .intVal (tkI 57 5) []],
    nd .boolOp (tkS .boolOp 74 txt!"OR") [nd .op (tkS .op 70 txt!"=") [nd .usrAtt (tkS .usrAtt 63 txt!"6") [],
    nd .intVal (tkI 72 7) []],
    nd .boolOp (tkS .boolOp 89 txt!"AND") [nd .op (tkS .op 85 txt!"=") [nd .usrAtt (tkS .usrAtt 78 txt!"8") [],
    nd .intVal (tkI 87 9) []],
    nd .boolOp (tkS .boolOp 107 txt!"OR") [nd .op (tkS .op 103 txt!"=") [nd .objAtt (tkS .objAtt 94 txt!"8") [],
    nd .intVal (tkI 105 5) []],
    nd .boolOp (tkS .boolOp 124 txt!"AND") [nd .op (tkS .op 120 txt!"=") [nd .objAtt (tkS .objAtt 111 txt!"6") [],
    nd .intVal (tkI 122 7) []],
    nd .boolOp (tkS .boolOp 142 txt!"OR") [nd .op (tkS .op 138 txt!"=") [nd .objAtt (tkS .objAtt 129 txt!"4") [],
    nd .intVal (tkI 140 5) []],
    nd .boolOp (tkS .boolOp 159 txt!"AND") [nd .op (tkS .op 155 txt!"=") [nd .objAtt (tkS .objAtt 146 txt!"3") [],
    nd .intVal (tkI 157 4) []],
    nd .boolOp (tkS .boolOp 181 txt!"OR") [nd .not (tkS .notOp 164 txt!"NOT") [nd .op (tkS .op 176 txt!"=") [nd .usrAtt (tkS .usrAtt 169 txt!"2") [],
    nd .intVal (tkI 178 3) []]], nd .op (tkS .op 194 txt!"<=") [nd .objAtt (tkS .objAtt 185 txt!"1") [],
    nd .intVal (tkI 197 5) []]]]]]]]]]]]]) = true := by decide +kernel

/-! ### `test_bools`, `hgpl/test/test_parsing.py:555` -/

example : parses txt!"TRUE OR FALSE AND UNDEF or false and true and undef Or True And False aNd Undef" (nd .boolOp (tkS .boolOp 52 txt!"OR") [nd .boolOp (tkS .boolOp 24 txt!"OR") [nd .boolOp (tkS .boolOp 5 txt!"OR") [nd .boolVal (tkS .bool 0 txt!"TRUE") [],
    nd .boolOp (tkS .boolOp 14 txt!"AND") [nd .boolVal (tkS .bool 8 txt!"FALSE") [],
    nd .boolVal (tkS .bool 18 txt!"UNDEF") []]],
    nd .boolOp (tkS .boolOp 42 txt!"AND") [nd .boolOp (tkS .boolOp 33 txt!"AND") [nd .boolVal (tkS .bool 27 txt!"FALSE") [],
    nd .boolVal (tkS .bool 37 txt!"TRUE") []], nd .boolVal (tkS .bool 46 txt!"UNDEF") []]],
    nd .boolOp (tkS .boolOp 70 txt!"AND") [nd .boolOp (tkS .boolOp 60 txt!"AND") [nd .boolVal (tkS .bool 55 txt!"TRUE") [],
    nd .boolVal (tkS .bool 64 txt!"FALSE") []], nd .boolVal (tkS .bool 74 txt!"UNDEF") []]]) = true := by decide +kernel

example : parses txt!"NOT TRUE OR NOT FALSE OR NOT UNDEF" (nd .boolOp (tkS .boolOp 22 txt!"OR") [nd .boolOp (tkS .boolOp 9 txt!"OR") [nd .not (tkS .notOp 0 txt!"NOT") [nd .boolVal (tkS .bool 4 txt!"TRUE") []],
    nd .not (tkS .notOp 12 txt!"NOT") [nd .boolVal (tkS .bool 16 txt!"FALSE") []]],
    nd .not (tkS .notOp 25 txt!"NOT") [nd .boolVal (tkS .bool 29 txt!"UNDEF") []]]) = true := by decide +kernel

example : parses txt!"user.bool OR admin.bool AND env.bool OR connect.bool" (nd .boolOp (tkS .boolOp 37 txt!"OR") [nd .boolOp (tkS .boolOp 10 txt!"OR") [nd .usrAtt (tkS .usrAtt 0 txt!"bool") [],
    nd .boolOp (tkS .boolOp 24 txt!"AND") [nd .admAtt (tkS .admAtt 13 txt!"bool") [],
    nd .envAtt (tkS .envAtt 28 txt!"bool") []]], nd .conAtt (tkS .conAtt 40 txt!"bool") []]) = true := by decide +kernel

example : parses txt!"NOT connect.bool AND NOT user.bool OR NOT admin.bool AND NOT env.bool" (nd .boolOp (tkS .boolOp 35 txt!"OR") [nd .boolOp (tkS .boolOp 17 txt!"AND") [nd .not (tkS .notOp 0 txt!"NOT") [nd .conAtt (tkS .conAtt 4 txt!"bool") []],
    nd .not (tkS .notOp 21 txt!"NOT") [nd .usrAtt (tkS .usrAtt 25 txt!"bool") []]],
    nd .boolOp (tkS .boolOp 53 txt!"AND") [nd .not (tkS .notOp 38 txt!"NOT") [nd .admAtt (tkS .admAtt 42 txt!"bool") []],
    nd .not (tkS .notOp 57 txt!"NOT") [nd .envAtt (tkS .envAtt 61 txt!"bool") []]]]) = true := by decide +kernel

/-! ### `test_sets`, `hgpl/test/test_parsing.py:612` -/

example : parses txt!"user.all IN {1, 2, 3, \"a\", \"b\", \"c\", 1.1, 1.2, 1.3, NULL, nUlL, null, \"Hello World\", 1234567890, 0987654321.1234567890}" (nd .op (tkS .op 9 txt!"IN") [nd .usrAtt (tkS .usrAtt 0 txt!"all") [],
    nd .set (tk .lset 12) [nd .intVal (tkI 13 1) [], nd .intVal (tkI 16 2) [], nd .intVal (tkI 19 3) [],
    nd .stringVal (tkS .string 22 txt!"a") [], nd .stringVal (tkS .string 27 txt!"b") [],
    nd .stringVal (tkS .string 32 txt!"c") [], nd .floatVal (tkF 37 (11 / 10 : Rat)) [],
    nd .floatVal (tkF 42 (6 / 5 : Rat)) [], nd .floatVal (tkF 47 (13 / 10 : Rat)) [],
    nd .nullVal (tkS .null 52 txt!"NULL") [], nd .nullVal (tkS .null 58 txt!"NULL") [],
    nd .nullVal (tkS .null 64 txt!"NULL") [], nd .stringVal (tkS .string 70 txt!"Hello World") [],
    nd .intVal (tkI 85 1234567890) [], nd .floatVal (tkF 97 (1234567901404321 / 1250000 : Rat)) []]]) = true := by decide +kernel

example : parses txt!"admin.empty_set = {}" (nd .op (tkS .op 16 txt!"=") [nd .admAtt (tkS .admAtt 0 txt!"empty_set") [],
    nd .set (tk .lset 18) []]) = true := by decide +kernel

example : parses txt!"object.size_one_set_num = {1337}" (nd .op (tkS .op 24 txt!"=") [nd .objAtt (tkS .objAtt 0 txt!"size_one_set_num") [],
    nd .set (tk .lset 26) [nd .intVal (tkI 27 1337) []]]) = true := by decide +kernel

example : parses txt!"connect.size_one_set_float = {3.14}" (nd .op (tkS .op 27 txt!"=") [nd .conAtt (tkS .conAtt 0 txt!"size_one_set_float") [],
    nd .set (tk .lset 29) [nd .floatVal (tkF 30 (157 / 50 : Rat)) []]]) = true := by decide +kernel

example : parses txt!"{\"one set with string\"} != {\"two set\", \"with string\"}" (nd .op (tkS .op 24 txt!"!=") [nd .set (tk .lset 0) [nd .stringVal (tkS .string 1 txt!"one set with string") []],
    nd .set (tk .lset 27) [nd .stringVal (tkS .string 28 txt!"two set") [],
    nd .stringVal (tkS .string 39 txt!"with string") []]]) = true := by decide +kernel

example : parses txt!"{null} SUBSET env.one_set_null" (nd .op (tkS .op 7 txt!"SUBSET") [nd .set (tk .lset 0) [nd .nullVal (tkS .null 1 txt!"NULL") []],
    nd .envAtt (tkS .envAtt 14 txt!"one_set_null") []]) = true := by decide +kernel

/-! ### `test_hgabac_paper_ex_a`, `hgpl/test/test_parsing.py:672` -/

example : parses txt!"user.id IN {5, 72, 4, 6, 4} OR user.id = object.owner" (nd .boolOp (tkS .boolOp 28 txt!"OR") [nd .op (tkS .op 8 txt!"IN") [nd .usrAtt (tkS .usrAtt 0 txt!"id") [],
    nd .set (tk .lset 11) [nd .intVal (tkI 12 5) [], nd .intVal (tkI 15 72) [], nd .intVal (tkI 19 4) [],
    nd .intVal (tkI 22 6) [], nd .intVal (tkI 25 4) []]],
    nd .op (tkS .op 39 txt!"=") [nd .usrAtt (tkS .usrAtt 31 txt!"id") [],
    nd .objAtt (tkS .objAtt 41 txt!"owner") []]]) = true := by decide +kernel

/-! ### `test_hgabac_paper_ex_b`, `hgpl/test/test_parsing.py:689` -/

example : parses txt!"object.required_perms SUBSET user.perms AND user.age >= 18" (nd .boolOp (tkS .boolOp 40 txt!"AND") [nd .op (tkS .op 22 txt!"SUBSET") [nd .objAtt (tkS .objAtt 0 txt!"required_perms") [],
    nd .usrAtt (tkS .usrAtt 29 txt!"perms") []],
    nd .op (tkS .op 53 txt!">=") [nd .usrAtt (tkS .usrAtt 44 txt!"age") [], nd .intVal (tkI 56 18) []]]) = true := by decide +kernel

/-! ### `test_hgabac_paper_ex_c`, `hgpl/test/test_parsing.py:700` -/

example : parses txt!"user.admin OR (user.role = \"doctor\" AND user.id != object.patient)" (nd .boolOp (tkS .boolOp 11 txt!"OR") [nd .usrAtt (tkS .usrAtt 0 txt!"admin") [],
    nd .boolOp (tkS .boolOp 36 txt!"AND") [nd .op (tkS .op 25 txt!"=") [nd .usrAtt (tkS .usrAtt 15 txt!"role") [],
    nd .stringVal (tkS .string 27 txt!"doctor") []],
    nd .op (tkS .op 48 txt!"!=") [nd .usrAtt (tkS .usrAtt 40 txt!"id") [],
    nd .objAtt (tkS .objAtt 51 txt!"patient") []]]]) = true := by decide +kernel

/-! ### `test_hgabac_paper_ex_c_with_parn_inverted`, `hgpl/test/test_parsing.py:713` -/

example : parses txt!"(user.admin OR user.role = \"doctor\") AND user.id != object.patient" (nd .boolOp (tkS .boolOp 37 txt!"AND") [nd .boolOp (tkS .boolOp 12 txt!"OR") [nd .usrAtt (tkS .usrAtt 1 txt!"admin") [],
    nd .op (tkS .op 25 txt!"=") [nd .usrAtt (tkS .usrAtt 15 txt!"role") [],
    nd .stringVal (tkS .string 27 txt!"doctor") []]],
    nd .op (tkS .op 49 txt!"!=") [nd .usrAtt (tkS .usrAtt 41 txt!"id") [],
    nd .objAtt (tkS .objAtt 52 txt!"patient") []]]) = true := by decide +kernel

/-! ### `test_hgabac_paper_case_1`, `hgpl/test/test_parsing.py:726` -/

example : parses txt!"\"undergrad\" IN user.user_type AND ((object.object_type = \"book\" AND NOT object.restricted) OR (object.object_type = \"course\" AND user.enrolled_in IN object.req_course))" (nd .boolOp (tkS .boolOp 30 txt!"AND") [nd .op (tkS .op 12 txt!"IN") [nd .stringVal (tkS .string 0 txt!"undergrad") [],
    nd .usrAtt (tkS .usrAtt 15 txt!"user_type") []],
    nd .boolOp (tkS .boolOp 91 txt!"OR") [nd .boolOp (tkS .boolOp 64 txt!"AND") [nd .op (tkS .op 55 txt!"=") [nd .objAtt (tkS .objAtt 36 txt!"object_type") [],
    nd .stringVal (tkS .string 57 txt!"book") []],
    nd .not (tkS .notOp 68 txt!"NOT") [nd .objAtt (tkS .objAtt 72 txt!"restricted") []]],
    nd .boolOp (tkS .boolOp 125 txt!"AND") [nd .op (tkS .op 114 txt!"=") [nd .objAtt (tkS .objAtt 95 txt!"object_type") [],
    nd .stringVal (tkS .string 116 txt!"course") []],
    nd .op (tkS .op 146 txt!"IN") [nd .usrAtt (tkS .usrAtt 129 txt!"enrolled_in") [],
    nd .objAtt (tkS .objAtt 149 txt!"req_course") []]]]]) = true := by decide +kernel

/-! ### `test_hgabac_paper_case_2`, `hgpl/test/test_parsing.py:749` -/

example : parses txt!"\"grad\" IN user.user_type AND (object.object_type = \"periodical\" OR (object.object_type =\"course\" AND object.req_course IN user.teaching))" (nd .boolOp (tkS .boolOp 25 txt!"AND") [nd .op (tkS .op 7 txt!"IN") [nd .stringVal (tkS .string 0 txt!"grad") [],
    nd .usrAtt (tkS .usrAtt 10 txt!"user_type") []],
    nd .boolOp (tkS .boolOp 64 txt!"OR") [nd .op (tkS .op 49 txt!"=") [nd .objAtt (tkS .objAtt 30 txt!"object_type") [],
    nd .stringVal (tkS .string 51 txt!"periodical") []],
    nd .boolOp (tkS .boolOp 97 txt!"AND") [nd .op (tkS .op 87 txt!"=") [nd .objAtt (tkS .objAtt 68 txt!"object_type") [],
    nd .stringVal (tkS .string 88 txt!"course") []],
    nd .op (tkS .op 119 txt!"IN") [nd .objAtt (tkS .objAtt 101 txt!"req_course") [],
    nd .usrAtt (tkS .usrAtt 122 txt!"teaching") []]]]]) = true := by decide +kernel

/-! ### `test_hgabac_paper_case_3`, `hgpl/test/test_parsing.py:769` -/

example : parses txt!"\"faculty\" IN user.user_type AND(object.object_type IN {\"book\", \"periodical\", \"course\"} OR (object.object_type = \"archive\" AND object.depart IN user.depart))" (nd .boolOp (tkS .boolOp 28 txt!"AND") [nd .op (tkS .op 10 txt!"IN") [nd .stringVal (tkS .string 0 txt!"faculty") [],
    nd .usrAtt (tkS .usrAtt 13 txt!"user_type") []],
    nd .boolOp (tkS .boolOp 87 txt!"OR") [nd .op (tkS .op 51 txt!"IN") [nd .objAtt (tkS .objAtt 32 txt!"object_type") [],
    nd .set (tk .lset 54) [nd .stringVal (tkS .string 55 txt!"book") [],
    nd .stringVal (tkS .string 63 txt!"periodical") [], nd .stringVal (tkS .string 77 txt!"course") []]],
    nd .boolOp (tkS .boolOp 122 txt!"AND") [nd .op (tkS .op 110 txt!"=") [nd .objAtt (tkS .objAtt 91 txt!"object_type") [],
    nd .stringVal (tkS .string 112 txt!"archive") []],
    nd .op (tkS .op 140 txt!"IN") [nd .objAtt (tkS .objAtt 126 txt!"depart") [],
    nd .usrAtt (tkS .usrAtt 143 txt!"depart") []]]]]) = true := by decide +kernel

/-! ### `test_hgabac_paper_case_4`, `hgpl/test/test_parsing.py:792` -/

example : parses txt!"\"staff\" IN user.user_type AND env.time_of_day_hour >= 8 AND env.time_of_day_hour <= 16 AND env.day_of_week IN {2, 3, 4, 5, 6}" (nd .boolOp (tkS .boolOp 87 txt!"AND") [nd .boolOp (tkS .boolOp 56 txt!"AND") [nd .boolOp (tkS .boolOp 26 txt!"AND") [nd .op (tkS .op 8 txt!"IN") [nd .stringVal (tkS .string 0 txt!"staff") [],
    nd .usrAtt (tkS .usrAtt 11 txt!"user_type") []],
    nd .op (tkS .op 51 txt!">=") [nd .envAtt (tkS .envAtt 30 txt!"time_of_day_hour") [], nd .intVal (tkI 54 8) []]],
    nd .op (tkS .op 81 txt!"<=") [nd .envAtt (tkS .envAtt 60 txt!"time_of_day_hour") [], nd .intVal (tkI 84 16) []]],
    nd .op (tkS .op 107 txt!"IN") [nd .envAtt (tkS .envAtt 91 txt!"day_of_week") [],
    nd .set (tk .lset 110) [nd .intVal (tkI 111 2) [], nd .intVal (tkI 114 3) [], nd .intVal (tkI 117 4) [],
    nd .intVal (tkI 120 5) [], nd .intVal (tkI 123 6) []]]]) = true := by decide +kernel

/-! ### `test_hgabac_paper_case_5`, `hgpl/test/test_parsing.py:817` -/

example : parses txt!"\"cs_course\" IN user.enrolled_in AND connect.ip_octet_1 = 192 AND connect.ip_octet_2 = 168 AND object.object_type = \"periodical\"" (nd .boolOp (tkS .boolOp 90 txt!"AND") [nd .boolOp (tkS .boolOp 61 txt!"AND") [nd .boolOp (tkS .boolOp 32 txt!"AND") [nd .op (tkS .op 12 txt!"IN") [nd .stringVal (tkS .string 0 txt!"cs_course") [],
    nd .usrAtt (tkS .usrAtt 15 txt!"enrolled_in") []],
    nd .op (tkS .op 55 txt!"=") [nd .conAtt (tkS .conAtt 36 txt!"ip_octet_1") [], nd .intVal (tkI 57 192) []]],
    nd .op (tkS .op 84 txt!"=") [nd .conAtt (tkS .conAtt 65 txt!"ip_octet_2") [], nd .intVal (tkI 86 168) []]],
    nd .op (tkS .op 113 txt!"=") [nd .objAtt (tkS .objAtt 94 txt!"object_type") [],
    nd .stringVal (tkS .string 115 txt!"periodical") []]]) = true := by decide +kernel

end Verif.Tests
