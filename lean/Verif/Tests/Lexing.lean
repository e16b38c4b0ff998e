import Verif.Tests.Basic
/-!
# The unit tests of `hgpl/test/test_lexing.py`, restated for the model

Left out: `test_init` and `test_basic_functions` (stated by hand at the end of `Tests/Basic.lean`). These are tests on single inputs, not proofs: they check that the model agrees with what the authors of the code
recorded. The assertions were carried over from the text of the file by a script that reads it and does not run it.
-/

namespace Verif.Tests

/-! ### `test_eq`, `hgpl/test/test_lexing.py:36` -/

example : Token.eq (tkS .string 123 txt!"ABC") (tkS .string 123 txt!"ABC") = true := by decide +kernel

example : Token.eq (tkS .string 123 txt!"ABC") (tkS .string 123 txt!"ABC123") = false := by decide +kernel

example : Token.eq (tkS .string 123 txt!"ABC") (tkS .string 5 txt!"ABC") = false := by decide +kernel

example : Token.eq (tkS .string 123 txt!"ABC") (tkS .op 123 txt!"ABC") = false := by decide +kernel

example : Token.eq (tkS .string 123 txt!"ABC") (tkS .op 5 txt!"ABC123") = false := by decide +kernel

example : Token.eq (tkI 456 123) (tkI 456 123) = true := by decide +kernel

example : Token.eq (tkI 456 123) (tkS .string 123 txt!"ABC") = false := by decide +kernel

example : Token.eq (tkI 456 123) (tkI 456 321) = false := by decide +kernel

example : Token.eq (tkI 456 123) (tkI 786 123) = false := by decide +kernel

example : Token.eq (tkI 456 123) (tkF 456 (123 : Rat)) = false := by decide +kernel

/-! ### `test_float_errors`, `hgpl/test/test_lexing.py:118` -/

example : lexFails txt!"123.d23" 4 = true := by decide +kernel

example : lexFailsTok txt!"123.d23" (some (tk .float 0)) = true := by decide +kernel

example : lexFails txt!"123.-89" 4 = true := by decide +kernel

example : lexFailsTok txt!"123.-89" (some (tk .float 0)) = true := by decide +kernel

example : lexFails txt!"00987.(234)" 6 = true := by decide +kernel

example : lexFailsTok txt!"00987.(234)" (some (tk .float 0)) = true := by decide +kernel

example : lexFails txt!"123.456.789" 7 = true := by decide +kernel

example : lexFailsTok txt!"123.456.789" (some (tk .float 0)) = true := by decide +kernel

/-! ### `test_int_errors`, `hgpl/test/test_lexing.py:144` -/

example : lexFails txt!"123abc" 3 = true := by decide +kernel

example : lexFailsTok txt!"123abc" (some (tkS .unkId 3 txt!"abc")) = true := by decide +kernel

example : lexFails txt!"123+123" 3 = true := by decide +kernel

example : lexFailsTok txt!"123+123" none = true := by decide +kernel

example : lexFails txt!"098_767" 3 = true := by decide +kernel

example : lexFailsTok txt!"098_767" none = true := by decide +kernel

/-! ### `test_string_errors`, `hgpl/test/test_lexing.py:164` -/

example : lexFails txt!"\"Hello World!" 0 = true := by decide +kernel

example : lexFailsTok txt!"\"Hello World!" (some (tk .string 0)) = true := by decide +kernel

example : lexFails txt!"\"My name is \"Dan\".\"" 13 = true := by decide +kernel

example : lexFailsTok txt!"\"My name is \"Dan\".\"" (some (tkS .unkId 13 txt!"Dan")) = true := by decide +kernel

example : lexFails txt!"\"The following is invalid: \x1f\"" 27 = true := by decide +kernel

example : lexFailsTok txt!"\"The following is invalid: \x1f\"" (some (tk .string 0)) = true := by decide +kernel

example : lexFails txt!"\"The following is invalid: \x7f\"" 27 = true := by decide +kernel

example : lexFailsTok txt!"\"The following is invalid: \x7f\"" (some (tk .string 0)) = true := by decide +kernel

example : lexFails txt!"\"You can not put a \" in quotes\"" 24 = true := by decide +kernel

example : lexFailsTok txt!"\"You can not put a \" in quotes\"" (some (tkS .unkId 24 txt!"quotes")) = true := by decide +kernel

/-! ### `test_not_eq_errors`, `hgpl/test/test_lexing.py:196` -/

example : lexFails txt!"5 ! = 10" 3 = true := by decide +kernel

example : lexFailsTok txt!"5 ! = 10" (some (tkS .op 2 txt!"!=")) = true := by decide +kernel

example : lexFails txt!"5 !eq 10" 3 = true := by decide +kernel

example : lexFailsTok txt!"5 !eq 10" (some (tkS .op 2 txt!"!=")) = true := by decide +kernel

example : lexFails txt!"!(5 = 10)" 1 = true := by decide +kernel

example : lexFailsTok txt!"!(5 = 10)" (some (tkS .op 0 txt!"!=")) = true := by decide +kernel

example : lexFails txt!"!5=10" 1 = true := by decide +kernel

example : lexFailsTok txt!"!5=10" (some (tkS .op 0 txt!"!=")) = true := by decide +kernel

/-! ### `test_att_errors`, `hgpl/test/test_lexing.py:222` -/

example : lexFails txt!"myatt.age >= 18" 0 = true := by decide +kernel

example : lexFailsTok txt!"myatt.age >= 18" (some (tkS .unkAtt 0 txt!"myatt")) = true := by decide +kernel

example : lexFails txt!"admin.age = Users.age" 12 = true := by decide +kernel

example : lexFailsTok txt!"admin.age = Users.age" (some (tkS .unkAtt 12 txt!"users")) = true := by decide +kernel

example : lexFails txt!"_uSeR.age >= 18" 0 = true := by decide +kernel

example : lexFailsTok txt!"_uSeR.age >= 18" none = true := by decide +kernel

example : lexFails txt!"catage >= 3" 0 = true := by decide +kernel

example : lexFailsTok txt!"catage >= 3" (some (tkS .unkId 0 txt!"catage")) = true := by decide +kernel

example : lexFails txt!"user.-123 = 123" 5 = true := by decide +kernel

example : lexFailsTok txt!"user.-123 = 123" (some (tkS .unkAtt 0 txt!"user")) = true := by decide +kernel

example : lexFails txt!"Admin.+age >= 18" 6 = true := by decide +kernel

example : lexFailsTok txt!"Admin.+age >= 18" (some (tkS .unkAtt 0 txt!"admin")) = true := by decide +kernel

example : lexFails txt!"coNNect.(age) >= 18" 8 = true := by decide +kernel

example : lexFailsTok txt!"coNNect.(age) >= 18" (some (tkS .unkAtt 0 txt!"connect")) = true := by decide +kernel

example : lexFails txt!"env.\"age\" >= 18" 4 = true := by decide +kernel

example : lexFailsTok txt!"env.\"age\" >= 18" (some (tkS .unkAtt 0 txt!"env")) = true := by decide +kernel

/-! ### `test_id_errors`, `hgpl/test/test_lexing.py:272` -/

example : lexFails txt!"hello_world = \"Hello World!\"" 0 = true := by decide +kernel

example : lexFailsTok txt!"hello_world = \"Hello World!\"" (some (tkS .unkId 0 txt!"hello_world")) = true := by decide +kernel

example : lexFails txt!"5 NOR 6" 2 = true := by decide +kernel

example : lexFailsTok txt!"5 NOR 6" (some (tkS .unkId 2 txt!"NOR")) = true := by decide +kernel

example : lexFails txt!"dAniEl wAs hERe" 0 = true := by decide +kernel

example : lexFailsTok txt!"dAniEl wAs hERe" (some (tkS .unkId 0 txt!"dAniEl")) = true := by decide +kernel

example : lexFails txt!"myageis30 = 30" 0 = true := by decide +kernel

example : lexFailsTok txt!"myageis30 = 30" (some (tkS .unkId 0 txt!"myageis30")) = true := by decide +kernel

/-! ### `test_unexpected_char_errors`, `hgpl/test/test_lexing.py:298` -/

example : lexFails txt!"user.name = 'Daniel Servos'" 12 = true := by decide +kernel

example : lexFailsTok txt!"user.name = 'Daniel Servos'" none = true := by decide +kernel

example : lexFails txt!"user.age += 10" 9 = true := by decide +kernel

example : lexFailsTok txt!"user.age += 10" none = true := by decide +kernel

example : lexFails txt!"[1, 2, 3]" 0 = true := by decide +kernel

example : lexFailsTok txt!"[1, 2, 3]" none = true := by decide +kernel

example : lexFails txt!"--user.age" 0 = true := by decide +kernel

example : lexFailsTok txt!"--user.age" none = true := by decide +kernel

/-! ### `test_empty_policies`, `hgpl/test/test_lexing.py:340` -/

example : lexes txt!"" [tk .start 0, tk .«end» 0] = true := by decide +kernel

example : shows [tk .start 0, tk .«end» 0] txt!"START END" = true := by decide +kernel

example : lexes txt!" " [tk .start 0, tk .«end» 1] = true := by decide +kernel

example : shows [tk .start 0, tk .«end» 1] txt!"START END" = true := by decide +kernel

example : lexes txt!"          " [tk .start 0, tk .«end» 10] = true := by decide +kernel

example : shows [tk .start 0, tk .«end» 10] txt!"START END" = true := by decide +kernel

/-! ### `test_ops`, `hgpl/test/test_lexing.py:352` -/

example : lexes txt!"subset>in<IN=>=<=!=SUBSET" [tk .start 0, tkS .op 0 txt!"SUBSET", tkS .op 6 txt!">", tkS .op 7 txt!"IN",
    tkS .op 9 txt!"<", tkS .op 10 txt!"IN", tkS .op 12 txt!"=", tkS .op 13 txt!">=", tkS .op 15 txt!"<=",
    tkS .op 17 txt!"!=", tkS .op 19 txt!"SUBSET", tk .«end» 25] = true := by decide +kernel

example : shows [tk .start 0, tkS .op 0 txt!"SUBSET", tkS .op 6 txt!">", tkS .op 7 txt!"IN", tkS .op 9 txt!"<",
    tkS .op 10 txt!"IN", tkS .op 12 txt!"=", tkS .op 13 txt!">=", tkS .op 15 txt!"<=", tkS .op 17 txt!"!=",
    tkS .op 19 txt!"SUBSET", tk .«end» 25] txt!"START OP OP OP OP OP OP OP OP OP OP END" = true := by decide +kernel

/-! ### `test_bool_ops_and_null`, `hgpl/test/test_lexing.py:361` -/

example : lexes txt!"NOT AND OR NULL not and or null Not And Or Null" [tk .start 0, tkS .notOp 0 txt!"NOT",
    tkS .boolOp 4 txt!"AND", tkS .boolOp 8 txt!"OR", tkS .null 11 txt!"NULL", tkS .notOp 16 txt!"NOT",
    tkS .boolOp 20 txt!"AND", tkS .boolOp 24 txt!"OR", tkS .null 27 txt!"NULL", tkS .notOp 32 txt!"NOT",
    tkS .boolOp 36 txt!"AND", tkS .boolOp 40 txt!"OR", tkS .null 43 txt!"NULL", tk .«end» 47] = true := by decide +kernel

example : shows [tk .start 0, tkS .notOp 0 txt!"NOT", tkS .boolOp 4 txt!"AND", tkS .boolOp 8 txt!"OR",
    tkS .null 11 txt!"NULL", tkS .notOp 16 txt!"NOT", tkS .boolOp 20 txt!"AND", tkS .boolOp 24 txt!"OR",
    tkS .null 27 txt!"NULL", tkS .notOp 32 txt!"NOT", tkS .boolOp 36 txt!"AND", tkS .boolOp 40 txt!"OR",
    tkS .null 43 txt!"NULL",
    tk .«end» 47] txt!"START NOT_OP BOOL_OP BOOL_OP NULL NOT_OP BOOL_OP BOOL_OP NULL NOT_OP BOOL_OP BOOL_OP NULL END" = true := by decide +kernel

/-! ### `test_bool_vals`, `hgpl/test/test_lexing.py:373` -/

example : lexes txt!"TRUE FALSE UNDEF false true undef fAlSe True uNdeF" [tk .start 0, tkS .bool 0 txt!"TRUE",
    tkS .bool 5 txt!"FALSE", tkS .bool 11 txt!"UNDEF", tkS .bool 17 txt!"FALSE", tkS .bool 23 txt!"TRUE",
    tkS .bool 28 txt!"UNDEF", tkS .bool 34 txt!"FALSE", tkS .bool 40 txt!"TRUE", tkS .bool 45 txt!"UNDEF",
    tk .«end» 50] = true := by decide +kernel

example : shows [tk .start 0, tkS .bool 0 txt!"TRUE", tkS .bool 5 txt!"FALSE", tkS .bool 11 txt!"UNDEF",
    tkS .bool 17 txt!"FALSE", tkS .bool 23 txt!"TRUE", tkS .bool 28 txt!"UNDEF", tkS .bool 34 txt!"FALSE",
    tkS .bool 40 txt!"TRUE", tkS .bool 45 txt!"UNDEF",
    tk .«end» 50] txt!"START BOOL BOOL BOOL BOOL BOOL BOOL BOOL BOOL BOOL END" = true := by decide +kernel

/-! ### `test_int_vals`, `hgpl/test/test_lexing.py:383` -/

example : lexes txt!"1 2 3 4 5 6 7 8 9 0 -1 -2 -3 -4 -5 -6 -7 -8 -9 -0 12345 -567890 1234567890 0987654321 -0001234 0001234 123-324" [tk .start 0,
    tkI 0 1, tkI 2 2, tkI 4 3, tkI 6 4, tkI 8 5, tkI 10 6, tkI 12 7, tkI 14 8, tkI 16 9, tkI 18 0, tkI 20 (-1),
    tkI 23 (-2), tkI 26 (-3), tkI 29 (-4), tkI 32 (-5), tkI 35 (-6), tkI 38 (-7), tkI 41 (-8), tkI 44 (-9), tkI 47 0,
    tkI 50 12345, tkI 56 (-567890), tkI 64 1234567890, tkI 75 987654321, tkI 86 (-1234), tkI 95 1234, tkI 103 123,
    tkI 106 (-324), tk .«end» 110] = true := by decide +kernel

example : shows [tk .start 0, tkI 0 1, tkI 2 2, tkI 4 3, tkI 6 4, tkI 8 5, tkI 10 6, tkI 12 7, tkI 14 8, tkI 16 9, tkI 18 0,
    tkI 20 (-1), tkI 23 (-2), tkI 26 (-3), tkI 29 (-4), tkI 32 (-5), tkI 35 (-6), tkI 38 (-7), tkI 41 (-8),
    tkI 44 (-9), tkI 47 0, tkI 50 12345, tkI 56 (-567890), tkI 64 1234567890, tkI 75 987654321, tkI 86 (-1234),
    tkI 95 1234, tkI 103 123, tkI 106 (-324),
    tk .«end» 110] txt!"START INT INT INT INT INT INT INT INT INT INT INT INT INT INT INT INT INT INT INT INT INT INT INT INT INT INT INT INT END" = true := by decide +kernel

/-! ### `test_float_vals`, `hgpl/test/test_lexing.py:401` -/

example : lexes txt!"1.1 2.2 3.3 4.4 5.5 6.6 7.7 8.8 9.9 0.1 -1.9 -2.8 -3.7 -4.6 -5.5 -6.4 -7.3 -8.2 -9.1 -0.1 0.0 -0.0 134.456 -789.987 1234567890.0987654321 -0987654321.1234567890 00100.00100 -00200.00200 0.123 000.123 123.0 123.000" [tk .start 0,
    tkF 0 (11 / 10 : Rat), tkF 4 (11 / 5 : Rat), tkF 8 (33 / 10 : Rat), tkF 12 (22 / 5 : Rat), tkF 16 (11 / 2 : Rat),
    tkF 20 (33 / 5 : Rat), tkF 24 (77 / 10 : Rat), tkF 28 (44 / 5 : Rat), tkF 32 (99 / 10 : Rat),
    tkF 36 (1 / 10 : Rat), tkF 40 (-19 / 10 : Rat), tkF 45 (-14 / 5 : Rat), tkF 50 (-37 / 10 : Rat),
    tkF 55 (-23 / 5 : Rat), tkF 60 (-11 / 2 : Rat), tkF 65 (-32 / 5 : Rat), tkF 70 (-73 / 10 : Rat),
    tkF 75 (-41 / 5 : Rat), tkF 80 (-91 / 10 : Rat), tkF 85 (-1 / 10 : Rat), tkF 90 (0 : Rat), tkF 94 (0 : Rat),
    tkF 99 (16807 / 125 : Rat), tkF 107 (-789987 / 1000 : Rat), tkF 116 (12345678900987654321 / 10000000000 : Rat),
    tkF 138 (-987654321123456789 / 1000000000 : Rat), tkF 161 (100001 / 1000 : Rat), tkF 173 (-100001 / 500 : Rat),
    tkF 186 (123 / 1000 : Rat), tkF 192 (123 / 1000 : Rat), tkF 200 (123 : Rat), tkF 206 (123 : Rat),
    tk .«end» 213] = true := by decide +kernel

example : shows [tk .start 0, tkF 0 (11 / 10 : Rat), tkF 4 (11 / 5 : Rat), tkF 8 (33 / 10 : Rat), tkF 12 (22 / 5 : Rat),
    tkF 16 (11 / 2 : Rat), tkF 20 (33 / 5 : Rat), tkF 24 (77 / 10 : Rat), tkF 28 (44 / 5 : Rat),
    tkF 32 (99 / 10 : Rat), tkF 36 (1 / 10 : Rat), tkF 40 (-19 / 10 : Rat), tkF 45 (-14 / 5 : Rat),
    tkF 50 (-37 / 10 : Rat), tkF 55 (-23 / 5 : Rat), tkF 60 (-11 / 2 : Rat), tkF 65 (-32 / 5 : Rat),
    tkF 70 (-73 / 10 : Rat), tkF 75 (-41 / 5 : Rat), tkF 80 (-91 / 10 : Rat), tkF 85 (-1 / 10 : Rat),
    tkF 90 (0 : Rat), tkF 94 (0 : Rat), tkF 99 (16807 / 125 : Rat), tkF 107 (-789987 / 1000 : Rat),
    tkF 116 (12345678900987654321 / 10000000000 : Rat), tkF 138 (-987654321123456789 / 1000000000 : Rat),
    tkF 161 (100001 / 1000 : Rat), tkF 173 (-100001 / 500 : Rat), tkF 186 (123 / 1000 : Rat),
    tkF 192 (123 / 1000 : Rat), tkF 200 (123 : Rat), tkF 206 (123 : Rat),
    tk .«end» 213] txt!"START FLOAT FLOAT FLOAT FLOAT FLOAT FLOAT FLOAT FLOAT FLOAT FLOAT FLOAT FLOAT FLOAT FLOAT FLOAT FLOAT FLOAT FLOAT FLOAT FLOAT FLOAT FLOAT FLOAT FLOAT FLOAT FLOAT FLOAT FLOAT FLOAT FLOAT FLOAT FLOAT END" = true := by decide +kernel

/-! ### `test_string_vals`, `hgpl/test/test_lexing.py:423` -/

example : lexes txt!"\"\"\"a\"\"A\"\"z\"\"Z\"\" \"\"!\"\"#$%&'()*+'-./\"\"!01ZXY234$567abc89!\"\":;<=>?@[\\]^_`{|}~\"\"abcdefghijklmnopqrstuvwxyz ABCDEFGHIJKLMNOPQRSTUVWXYZ 0123456789 ~!@#$%^&*()_+ =-`\" \"Hello world!\"" [tk .start 0,
    tkS .string 0 txt!"", tkS .string 2 txt!"a", tkS .string 5 txt!"A", tkS .string 8 txt!"z", tkS .string 11 txt!"Z",
    tkS .string 14 txt!" ", tkS .string 17 txt!"!", tkS .string 20 txt!"#$%&'()*+'-./",
    tkS .string 35 txt!"!01ZXY234$567abc89!", tkS .string 56 txt!":;<=>?@[\\]^_`{|}~",
    tkS .string 75 txt!"abcdefghijklmnopqrstuvwxyz ABCDEFGHIJKLMNOPQRSTUVWXYZ 0123456789 ~!@#$%^&*()_+ =-`",
    tkS .string 160 txt!"Hello world!", tk .«end» 174] = true := by decide +kernel

example : shows [tk .start 0, tkS .string 0 txt!"", tkS .string 2 txt!"a", tkS .string 5 txt!"A", tkS .string 8 txt!"z",
    tkS .string 11 txt!"Z", tkS .string 14 txt!" ", tkS .string 17 txt!"!", tkS .string 20 txt!"#$%&'()*+'-./",
    tkS .string 35 txt!"!01ZXY234$567abc89!", tkS .string 56 txt!":;<=>?@[\\]^_`{|}~",
    tkS .string 75 txt!"abcdefghijklmnopqrstuvwxyz ABCDEFGHIJKLMNOPQRSTUVWXYZ 0123456789 ~!@#$%^&*()_+ =-`",
    tkS .string 160 txt!"Hello world!",
    tk .«end» 174] txt!"START STRING STRING STRING STRING STRING STRING STRING STRING STRING STRING STRING STRING END" = true := by decide +kernel

/-! ### `test_atts`, `hgpl/test/test_lexing.py:437` -/

example : lexes txt!"user.a user.Z user.1 user.0 user.9 user._ env.b env.X env.2 env.0 env.9 env._ object.c object.Y object.3 object.0 object.9 object._ admin.d admin.W admin.4 admin.0 admin.9 admin._ connect.e connect.V connect.5 connect.0 connect.9 connect._ user.0123456789abcdefghijklmnopqrstuvwxyzABCDEFGHIJKLMNOPQRSTUVWXYZ_ env._0123456789abcdefghijklmnopqrstuvwxyzABCDEFGHIJKLMNOPQRSTUVWXYZ object.abcdefghijklmnopqrstuvwxyzABCDEFGHIJKLMNOPQRSTUVWXYZ_0123456789 admin.ABCDEFGHIJKLMNOPQRSTUVWXYZ_0123456789abcdefghijklmnopqrstuvwxyz" [tk .start 0,
    tkS .usrAtt 0 txt!"a", tkS .usrAtt 7 txt!"Z", tkS .usrAtt 14 txt!"1", tkS .usrAtt 21 txt!"0",
    tkS .usrAtt 28 txt!"9", tkS .usrAtt 35 txt!"_", tkS .envAtt 42 txt!"b", tkS .envAtt 48 txt!"X",
    tkS .envAtt 54 txt!"2", tkS .envAtt 60 txt!"0", tkS .envAtt 66 txt!"9", tkS .envAtt 72 txt!"_",
    tkS .objAtt 78 txt!"c", tkS .objAtt 87 txt!"Y", tkS .objAtt 96 txt!"3", tkS .objAtt 105 txt!"0",
    tkS .objAtt 114 txt!"9", tkS .objAtt 123 txt!"_", tkS .admAtt 132 txt!"d", tkS .admAtt 140 txt!"W",
    tkS .admAtt 148 txt!"4", tkS .admAtt 156 txt!"0", tkS .admAtt 164 txt!"9", tkS .admAtt 172 txt!"_",
    tkS .conAtt 180 txt!"e", tkS .conAtt 190 txt!"V", tkS .conAtt 200 txt!"5", tkS .conAtt 210 txt!"0",
    tkS .conAtt 220 txt!"9", tkS .conAtt 230 txt!"_",
    tkS .usrAtt 240 txt!"0123456789abcdefghijklmnopqrstuvwxyzABCDEFGHIJKLMNOPQRSTUVWXYZ_",
    tkS .envAtt 309 txt!"_0123456789abcdefghijklmnopqrstuvwxyzABCDEFGHIJKLMNOPQRSTUVWXYZ",
    tkS .objAtt 377 txt!"abcdefghijklmnopqrstuvwxyzABCDEFGHIJKLMNOPQRSTUVWXYZ_0123456789",
    tkS .admAtt 448 txt!"ABCDEFGHIJKLMNOPQRSTUVWXYZ_0123456789abcdefghijklmnopqrstuvwxyz", tk .«end» 517] = true := by decide +kernel

example : shows [tk .start 0, tkS .usrAtt 0 txt!"a", tkS .usrAtt 7 txt!"Z", tkS .usrAtt 14 txt!"1", tkS .usrAtt 21 txt!"0",
    tkS .usrAtt 28 txt!"9", tkS .usrAtt 35 txt!"_", tkS .envAtt 42 txt!"b", tkS .envAtt 48 txt!"X",
    tkS .envAtt 54 txt!"2", tkS .envAtt 60 txt!"0", tkS .envAtt 66 txt!"9", tkS .envAtt 72 txt!"_",
    tkS .objAtt 78 txt!"c", tkS .objAtt 87 txt!"Y", tkS .objAtt 96 txt!"3", tkS .objAtt 105 txt!"0",
    tkS .objAtt 114 txt!"9", tkS .objAtt 123 txt!"_", tkS .admAtt 132 txt!"d", tkS .admAtt 140 txt!"W",
    tkS .admAtt 148 txt!"4", tkS .admAtt 156 txt!"0", tkS .admAtt 164 txt!"9", tkS .admAtt 172 txt!"_",
    tkS .conAtt 180 txt!"e", tkS .conAtt 190 txt!"V", tkS .conAtt 200 txt!"5", tkS .conAtt 210 txt!"0",
    tkS .conAtt 220 txt!"9", tkS .conAtt 230 txt!"_",
    tkS .usrAtt 240 txt!"0123456789abcdefghijklmnopqrstuvwxyzABCDEFGHIJKLMNOPQRSTUVWXYZ_",
    tkS .envAtt 309 txt!"_0123456789abcdefghijklmnopqrstuvwxyzABCDEFGHIJKLMNOPQRSTUVWXYZ",
    tkS .objAtt 377 txt!"abcdefghijklmnopqrstuvwxyzABCDEFGHIJKLMNOPQRSTUVWXYZ_0123456789",
    tkS .admAtt 448 txt!"ABCDEFGHIJKLMNOPQRSTUVWXYZ_0123456789abcdefghijklmnopqrstuvwxyz",
    tk .«end» 517] txt!"START USR_ATT USR_ATT USR_ATT USR_ATT USR_ATT USR_ATT ENV_ATT ENV_ATT ENV_ATT ENV_ATT ENV_ATT ENV_ATT OBJ_ATT OBJ_ATT OBJ_ATT OBJ_ATT OBJ_ATT OBJ_ATT ADM_ATT ADM_ATT ADM_ATT ADM_ATT ADM_ATT ADM_ATT CON_ATT CON_ATT CON_ATT CON_ATT CON_ATT CON_ATT USR_ATT ENV_ATT OBJ_ATT ADM_ATT END" = true := by decide +kernel

/-! ### `test_parn_and_set`, `hgpl/test/test_lexing.py:473` -/

example : lexes txt!"{},()}),,({" [tk .start 0, tk .lset 0, tk .rset 1, tk .comma 2, tk .lparn 3, tk .rparn 4, tk .rset 5,
    tk .rparn 6, tk .comma 7, tk .comma 8, tk .lparn 9, tk .lset 10, tk .«end» 11] = true := by decide +kernel

example : shows [tk .start 0, tk .lset 0, tk .rset 1, tk .comma 2, tk .lparn 3, tk .rparn 4, tk .rset 5, tk .rparn 6,
    tk .comma 7, tk .comma 8, tk .lparn 9, tk .lset 10,
    tk .«end» 11] txt!"START LSET RSET COMMA LPARN RPARN RSET RPARN COMMA COMMA LPARN LSET END" = true := by decide +kernel

/-! ### `test_mixed_tokens`, `hgpl/test/test_lexing.py:483` -/

example : lexes txt!"\"user.cat AND env._dog <= SUBSET {},,, () TRUE FALSE UNDEF NULL NOT IN >= != = < > AND OR connect.123 admin.XYZ -123.3425\" USER.SUBSET ENV.IN CONNECT.AND ADMIN.OR OBJECT.NOT uSer.NULL eNv.TRUE coNNect.FALSE oBJect.UNDEF user._AND_OR_NOT_ obJEct._FALSE_TRUE_NULL \"AND\" \"OR\" \"NULL\" \">\" \"=\" \"NOT\" \"IN\" \"123\" \"123.213\" \"-123.123\" \"-123\" user.user user.admin user.connect user.env user.object admin._user_ admin._con admin.env_" [tk .start 0,
    tkS .string 0 txt!"user.cat AND env._dog <= SUBSET {},,, () TRUE FALSE UNDEF NULL NOT IN >= != = < > AND OR connect.123 admin.XYZ -123.3425",
    tkS .usrAtt 123 txt!"SUBSET", tkS .envAtt 135 txt!"IN", tkS .conAtt 142 txt!"AND", tkS .admAtt 154 txt!"OR",
    tkS .objAtt 163 txt!"NOT", tkS .usrAtt 174 txt!"NULL", tkS .envAtt 184 txt!"TRUE", tkS .conAtt 193 txt!"FALSE",
    tkS .objAtt 207 txt!"UNDEF", tkS .usrAtt 220 txt!"_AND_OR_NOT_", tkS .objAtt 238 txt!"_FALSE_TRUE_NULL",
    tkS .string 262 txt!"AND", tkS .string 268 txt!"OR", tkS .string 273 txt!"NULL", tkS .string 280 txt!">",
    tkS .string 284 txt!"=", tkS .string 288 txt!"NOT", tkS .string 294 txt!"IN", tkS .string 299 txt!"123",
    tkS .string 305 txt!"123.213", tkS .string 315 txt!"-123.123", tkS .string 326 txt!"-123",
    tkS .usrAtt 333 txt!"user", tkS .usrAtt 343 txt!"admin", tkS .usrAtt 354 txt!"connect", tkS .usrAtt 367 txt!"env",
    tkS .usrAtt 376 txt!"object", tkS .admAtt 388 txt!"_user_", tkS .admAtt 401 txt!"_con",
    tkS .admAtt 412 txt!"env_", tk .«end» 422] = true := by decide +kernel

example : shows [tk .start 0,
    tkS .string 0 txt!"user.cat AND env._dog <= SUBSET {},,, () TRUE FALSE UNDEF NULL NOT IN >= != = < > AND OR connect.123 admin.XYZ -123.3425",
    tkS .usrAtt 123 txt!"SUBSET", tkS .envAtt 135 txt!"IN", tkS .conAtt 142 txt!"AND", tkS .admAtt 154 txt!"OR",
    tkS .objAtt 163 txt!"NOT", tkS .usrAtt 174 txt!"NULL", tkS .envAtt 184 txt!"TRUE", tkS .conAtt 193 txt!"FALSE",
    tkS .objAtt 207 txt!"UNDEF", tkS .usrAtt 220 txt!"_AND_OR_NOT_", tkS .objAtt 238 txt!"_FALSE_TRUE_NULL",
    tkS .string 262 txt!"AND", tkS .string 268 txt!"OR", tkS .string 273 txt!"NULL", tkS .string 280 txt!">",
    tkS .string 284 txt!"=", tkS .string 288 txt!"NOT", tkS .string 294 txt!"IN", tkS .string 299 txt!"123",
    tkS .string 305 txt!"123.213", tkS .string 315 txt!"-123.123", tkS .string 326 txt!"-123",
    tkS .usrAtt 333 txt!"user", tkS .usrAtt 343 txt!"admin", tkS .usrAtt 354 txt!"connect", tkS .usrAtt 367 txt!"env",
    tkS .usrAtt 376 txt!"object", tkS .admAtt 388 txt!"_user_", tkS .admAtt 401 txt!"_con",
    tkS .admAtt 412 txt!"env_",
    tk .«end» 422] txt!"START STRING USR_ATT ENV_ATT CON_ATT ADM_ATT OBJ_ATT USR_ATT ENV_ATT CON_ATT OBJ_ATT USR_ATT OBJ_ATT STRING STRING STRING STRING STRING STRING STRING STRING STRING STRING STRING USR_ATT USR_ATT USR_ATT USR_ATT USR_ATT ADM_ATT ADM_ATT ADM_ATT END" = true := by decide +kernel

/-! ### `test_hgabac_paper_ex_a`, `hgpl/test/test_lexing.py:513` -/

example : lexes txt!"user.id IN {5, 72, 4, 6, 4} OR user.id = object.owner" [tk .start 0, tkS .usrAtt 0 txt!"id",
    tkS .op 8 txt!"IN", tk .lset 11, tkI 12 5, tk .comma 13, tkI 15 72, tk .comma 17, tkI 19 4, tk .comma 20,
    tkI 22 6, tk .comma 23, tkI 25 4, tk .rset 26, tkS .boolOp 28 txt!"OR", tkS .usrAtt 31 txt!"id",
    tkS .op 39 txt!"=", tkS .objAtt 41 txt!"owner", tk .«end» 53] = true := by decide +kernel

example : shows [tk .start 0, tkS .usrAtt 0 txt!"id", tkS .op 8 txt!"IN", tk .lset 11, tkI 12 5, tk .comma 13, tkI 15 72,
    tk .comma 17, tkI 19 4, tk .comma 20, tkI 22 6, tk .comma 23, tkI 25 4, tk .rset 26, tkS .boolOp 28 txt!"OR",
    tkS .usrAtt 31 txt!"id", tkS .op 39 txt!"=", tkS .objAtt 41 txt!"owner",
    tk .«end» 53] txt!"START USR_ATT OP LSET INT COMMA INT COMMA INT COMMA INT COMMA INT RSET BOOL_OP USR_ATT OP OBJ_ATT END" = true := by decide +kernel

/-! ### `test_hgabac_paper_ex_b`, `hgpl/test/test_lexing.py:526` -/

example : lexes txt!"object.required_perms SUBSET user.perms AND user.age >= 18" [tk .start 0,
    tkS .objAtt 0 txt!"required_perms", tkS .op 22 txt!"SUBSET", tkS .usrAtt 29 txt!"perms", tkS .boolOp 40 txt!"AND",
    tkS .usrAtt 44 txt!"age", tkS .op 53 txt!">=", tkI 56 18, tk .«end» 58] = true := by decide +kernel

example : shows [tk .start 0, tkS .objAtt 0 txt!"required_perms", tkS .op 22 txt!"SUBSET", tkS .usrAtt 29 txt!"perms",
    tkS .boolOp 40 txt!"AND", tkS .usrAtt 44 txt!"age", tkS .op 53 txt!">=", tkI 56 18,
    tk .«end» 58] txt!"START OBJ_ATT OP USR_ATT BOOL_OP USR_ATT OP INT END" = true := by decide +kernel

/-! ### `test_hgabac_paper_ex_c`, `hgpl/test/test_lexing.py:535` -/

example : lexes txt!"user.admin OR (user.role = \"doctor\" AND user.id != object.patient)" [tk .start 0,
    tkS .usrAtt 0 txt!"admin", tkS .boolOp 11 txt!"OR", tk .lparn 14, tkS .usrAtt 15 txt!"role", tkS .op 25 txt!"=",
    tkS .string 27 txt!"doctor", tkS .boolOp 36 txt!"AND", tkS .usrAtt 40 txt!"id", tkS .op 48 txt!"!=",
    tkS .objAtt 51 txt!"patient", tk .rparn 65, tk .«end» 66] = true := by decide +kernel

example : shows [tk .start 0, tkS .usrAtt 0 txt!"admin", tkS .boolOp 11 txt!"OR", tk .lparn 14, tkS .usrAtt 15 txt!"role",
    tkS .op 25 txt!"=", tkS .string 27 txt!"doctor", tkS .boolOp 36 txt!"AND", tkS .usrAtt 40 txt!"id",
    tkS .op 48 txt!"!=", tkS .objAtt 51 txt!"patient", tk .rparn 65,
    tk .«end» 66] txt!"START USR_ATT BOOL_OP LPARN USR_ATT OP STRING BOOL_OP USR_ATT OP OBJ_ATT RPARN END" = true := by decide +kernel

/-! ### `test_hgabac_paper_case_1`, `hgpl/test/test_lexing.py:545` -/

example : lexes txt!"\"undergrad\" IN user.user_type AND ((object.object_type = \"book\" AND NOT object.restricted) OR (object.object_type = \"course\" AND user.enrolled_in IN object.req_course)" [tk .start 0,
    tkS .string 0 txt!"undergrad", tkS .op 12 txt!"IN", tkS .usrAtt 15 txt!"user_type", tkS .boolOp 30 txt!"AND",
    tk .lparn 34, tk .lparn 35, tkS .objAtt 36 txt!"object_type", tkS .op 55 txt!"=", tkS .string 57 txt!"book",
    tkS .boolOp 64 txt!"AND", tkS .notOp 68 txt!"NOT", tkS .objAtt 72 txt!"restricted", tk .rparn 89,
    tkS .boolOp 91 txt!"OR", tk .lparn 94, tkS .objAtt 95 txt!"object_type", tkS .op 114 txt!"=",
    tkS .string 116 txt!"course", tkS .boolOp 125 txt!"AND", tkS .usrAtt 129 txt!"enrolled_in", tkS .op 146 txt!"IN",
    tkS .objAtt 149 txt!"req_course", tk .rparn 166, tk .«end» 167] = true := by decide +kernel

example : shows [tk .start 0, tkS .string 0 txt!"undergrad", tkS .op 12 txt!"IN", tkS .usrAtt 15 txt!"user_type",
    tkS .boolOp 30 txt!"AND", tk .lparn 34, tk .lparn 35, tkS .objAtt 36 txt!"object_type", tkS .op 55 txt!"=",
    tkS .string 57 txt!"book", tkS .boolOp 64 txt!"AND", tkS .notOp 68 txt!"NOT", tkS .objAtt 72 txt!"restricted",
    tk .rparn 89, tkS .boolOp 91 txt!"OR", tk .lparn 94, tkS .objAtt 95 txt!"object_type", tkS .op 114 txt!"=",
    tkS .string 116 txt!"course", tkS .boolOp 125 txt!"AND", tkS .usrAtt 129 txt!"enrolled_in", tkS .op 146 txt!"IN",
    tkS .objAtt 149 txt!"req_course", tk .rparn 166,
    tk .«end» 167] txt!"START STRING OP USR_ATT BOOL_OP LPARN LPARN OBJ_ATT OP STRING BOOL_OP NOT_OP OBJ_ATT RPARN BOOL_OP LPARN OBJ_ATT OP STRING BOOL_OP USR_ATT OP OBJ_ATT RPARN END" = true := by decide +kernel

/-! ### `test_hgabac_paper_case_2`, `hgpl/test/test_lexing.py:564` -/

example : lexes txt!"\"grad\" IN user.user_type AND (object.object_type = \"periodical\" OR (object.object_type =\"course\" AND object.req_course IN user.teaching)" [tk .start 0,
    tkS .string 0 txt!"grad", tkS .op 7 txt!"IN", tkS .usrAtt 10 txt!"user_type", tkS .boolOp 25 txt!"AND",
    tk .lparn 29, tkS .objAtt 30 txt!"object_type", tkS .op 49 txt!"=", tkS .string 51 txt!"periodical",
    tkS .boolOp 64 txt!"OR", tk .lparn 67, tkS .objAtt 68 txt!"object_type", tkS .op 87 txt!"=",
    tkS .string 88 txt!"course", tkS .boolOp 97 txt!"AND", tkS .objAtt 101 txt!"req_course", tkS .op 119 txt!"IN",
    tkS .usrAtt 122 txt!"teaching", tk .rparn 135, tk .«end» 136] = true := by decide +kernel

example : shows [tk .start 0, tkS .string 0 txt!"grad", tkS .op 7 txt!"IN", tkS .usrAtt 10 txt!"user_type",
    tkS .boolOp 25 txt!"AND", tk .lparn 29, tkS .objAtt 30 txt!"object_type", tkS .op 49 txt!"=",
    tkS .string 51 txt!"periodical", tkS .boolOp 64 txt!"OR", tk .lparn 67, tkS .objAtt 68 txt!"object_type",
    tkS .op 87 txt!"=", tkS .string 88 txt!"course", tkS .boolOp 97 txt!"AND", tkS .objAtt 101 txt!"req_course",
    tkS .op 119 txt!"IN", tkS .usrAtt 122 txt!"teaching", tk .rparn 135,
    tk .«end» 136] txt!"START STRING OP USR_ATT BOOL_OP LPARN OBJ_ATT OP STRING BOOL_OP LPARN OBJ_ATT OP STRING BOOL_OP OBJ_ATT OP USR_ATT RPARN END" = true := by decide +kernel

/-! ### `test_hgabac_paper_case_3`, `hgpl/test/test_lexing.py:581` -/

example : lexes txt!"\"faculty\" IN user.user_type AND(object.object_type IN {\"book\", \"periodical\", \"course\"} OR (object.object_type = \"archive\" AND object.depart IN user.depart))" [tk .start 0,
    tkS .string 0 txt!"faculty", tkS .op 10 txt!"IN", tkS .usrAtt 13 txt!"user_type", tkS .boolOp 28 txt!"AND",
    tk .lparn 31, tkS .objAtt 32 txt!"object_type", tkS .op 51 txt!"IN", tk .lset 54, tkS .string 55 txt!"book",
    tk .comma 61, tkS .string 63 txt!"periodical", tk .comma 75, tkS .string 77 txt!"course", tk .rset 85,
    tkS .boolOp 87 txt!"OR", tk .lparn 90, tkS .objAtt 91 txt!"object_type", tkS .op 110 txt!"=",
    tkS .string 112 txt!"archive", tkS .boolOp 122 txt!"AND", tkS .objAtt 126 txt!"depart", tkS .op 140 txt!"IN",
    tkS .usrAtt 143 txt!"depart", tk .rparn 154, tk .rparn 155, tk .«end» 156] = true := by decide +kernel

example : shows [tk .start 0, tkS .string 0 txt!"faculty", tkS .op 10 txt!"IN", tkS .usrAtt 13 txt!"user_type",
    tkS .boolOp 28 txt!"AND", tk .lparn 31, tkS .objAtt 32 txt!"object_type", tkS .op 51 txt!"IN", tk .lset 54,
    tkS .string 55 txt!"book", tk .comma 61, tkS .string 63 txt!"periodical", tk .comma 75,
    tkS .string 77 txt!"course", tk .rset 85, tkS .boolOp 87 txt!"OR", tk .lparn 90, tkS .objAtt 91 txt!"object_type",
    tkS .op 110 txt!"=", tkS .string 112 txt!"archive", tkS .boolOp 122 txt!"AND", tkS .objAtt 126 txt!"depart",
    tkS .op 140 txt!"IN", tkS .usrAtt 143 txt!"depart", tk .rparn 154, tk .rparn 155,
    tk .«end» 156] txt!"START STRING OP USR_ATT BOOL_OP LPARN OBJ_ATT OP LSET STRING COMMA STRING COMMA STRING RSET BOOL_OP LPARN OBJ_ATT OP STRING BOOL_OP OBJ_ATT OP USR_ATT RPARN RPARN END" = true := by decide +kernel

/-! ### `test_hgabac_paper_case_4`, `hgpl/test/test_lexing.py:599` -/

example : lexes txt!"\"staff\" IN user.user_type AND env.time_of_day_hour >= 8 AND env.time_of_day_hour <= 16 AND env.day_of_week IN {2, 3, 4, 5, 6}" [tk .start 0,
    tkS .string 0 txt!"staff", tkS .op 8 txt!"IN", tkS .usrAtt 11 txt!"user_type", tkS .boolOp 26 txt!"AND",
    tkS .envAtt 30 txt!"time_of_day_hour", tkS .op 51 txt!">=", tkI 54 8, tkS .boolOp 56 txt!"AND",
    tkS .envAtt 60 txt!"time_of_day_hour", tkS .op 81 txt!"<=", tkI 84 16, tkS .boolOp 87 txt!"AND",
    tkS .envAtt 91 txt!"day_of_week", tkS .op 107 txt!"IN", tk .lset 110, tkI 111 2, tk .comma 112, tkI 114 3,
    tk .comma 115, tkI 117 4, tk .comma 118, tkI 120 5, tk .comma 121, tkI 123 6, tk .rset 124, tk .«end» 125] = true := by decide +kernel

example : shows [tk .start 0, tkS .string 0 txt!"staff", tkS .op 8 txt!"IN", tkS .usrAtt 11 txt!"user_type",
    tkS .boolOp 26 txt!"AND", tkS .envAtt 30 txt!"time_of_day_hour", tkS .op 51 txt!">=", tkI 54 8,
    tkS .boolOp 56 txt!"AND", tkS .envAtt 60 txt!"time_of_day_hour", tkS .op 81 txt!"<=", tkI 84 16,
    tkS .boolOp 87 txt!"AND", tkS .envAtt 91 txt!"day_of_week", tkS .op 107 txt!"IN", tk .lset 110, tkI 111 2,
    tk .comma 112, tkI 114 3, tk .comma 115, tkI 117 4, tk .comma 118, tkI 120 5, tk .comma 121, tkI 123 6,
    tk .rset 124,
    tk .«end» 125] txt!"START STRING OP USR_ATT BOOL_OP ENV_ATT OP INT BOOL_OP ENV_ATT OP INT BOOL_OP ENV_ATT OP LSET INT COMMA INT COMMA INT COMMA INT COMMA INT RSET END" = true := by decide +kernel

/-! ### `test_hgabac_paper_case_5`, `hgpl/test/test_lexing.py:617` -/

example : lexes txt!"\"cs_course\" IN user.enrolled_in AND connect.ip_octet_1 = 192 AND connect.ip_octet_2 = 168 AND object.object_type = \"periodical\"" [tk .start 0,
    tkS .string 0 txt!"cs_course", tkS .op 12 txt!"IN", tkS .usrAtt 15 txt!"enrolled_in", tkS .boolOp 32 txt!"AND",
    tkS .conAtt 36 txt!"ip_octet_1", tkS .op 55 txt!"=", tkI 57 192, tkS .boolOp 61 txt!"AND",
    tkS .conAtt 65 txt!"ip_octet_2", tkS .op 84 txt!"=", tkI 86 168, tkS .boolOp 90 txt!"AND",
    tkS .objAtt 94 txt!"object_type", tkS .op 113 txt!"=", tkS .string 115 txt!"periodical", tk .«end» 127] = true := by decide +kernel

example : shows [tk .start 0, tkS .string 0 txt!"cs_course", tkS .op 12 txt!"IN", tkS .usrAtt 15 txt!"enrolled_in",
    tkS .boolOp 32 txt!"AND", tkS .conAtt 36 txt!"ip_octet_1", tkS .op 55 txt!"=", tkI 57 192,
    tkS .boolOp 61 txt!"AND", tkS .conAtt 65 txt!"ip_octet_2", tkS .op 84 txt!"=", tkI 86 168,
    tkS .boolOp 90 txt!"AND", tkS .objAtt 94 txt!"object_type", tkS .op 113 txt!"=", tkS .string 115 txt!"periodical",
    tk .«end» 127] txt!"START STRING OP USR_ATT BOOL_OP CON_ATT OP INT BOOL_OP CON_ATT OP INT BOOL_OP OBJ_ATT OP STRING END" = true := by decide +kernel

end Verif.Tests
