# Formal model of HGABAC (policy language and attribute architecture)

The source is `/repo` (Python, dservos/HGABAC at the pinned commit), read as text. The model and proofs are
Lean 4 under `lean/Verif`. `properties.jsonl` lists the claims, `MANIFEST.json` maps each claim
to theorem names, `seeded/LOG.jsonl` records the mutation tests of the theorems.

## Layout

| directory | content |
|---|---|
| `Verif/Py/` | the fragment of the Python runtime the code uses (exceptions as values, strings, numbers, `struct`, base64) |
| `Verif/Model/` | the code, function by function; each definition cites file and lines |
| `Verif/Spec/` | independent specifications (grammars, denotational semantics, wire formats, abstract maps) |
| `Verif/Proofs/` | helper lemmas |
| `Verif/Props/` | the property theorems, one file per area, each with concrete non-vacuity examples |
| `Verif/Tests/` | the repository's own unit tests of the policy language and of attribute certificates, restated for the model |

## Trusted base

* The Lean 4.33.0 kernel and the definitions of Mathlib that statements mention (lists, rationals, `Int`, `Nat`).
* No axioms are added. No proof uses `sorry`, `native_decide` or `bv_decide`. Examples use `decide` and `decide +kernel`,
  which the kernel checks by computation.
* Axioms of the theorems in the manifest: see the last section. They are `propext`, `Quot.sound` and `Classical.choice` at most.
* That the definitions in `Verif/Model` and `Verif/Py` say what the Python code does. This was checked by reading only;
  the code cannot be run here. As a check, the assertions of the unit tests in `/repo/hgpl/test` (lexer, parser, type checker,
  interpreter, encoder; about 270) were carried over into `Verif/Tests` by a script that reads the test files as text. All hold in the model, for
  `cpythonUni` (ASCII tables, binary64). Likewise, by hand, those of `/repo/hgaa/test/test_attcert.py` (with a small key system that meets the assumptions made about RSA). Left out are `test_init` (fields of tokens only), the `token` of ParserErrors, which the model drops, and timing. Only the models of parts of the standard library were also compared with a local
  Python, without differences: `configparser` on 1500 random files, the parents of loggers on 20000 random sequences of `getLogger`, the file of `builtin_clobbered`, and `repr` of 400 random strings.
  The repository contains two certificates with the attributes of the sample data, dated 2017. In `Verif/Tests/SampleCerts` the model, given the shipped configuration, the sample
  rows and, taken from each file, its time, serial number, keys, signature and order of attributes (dictionaries had no order then), writes exactly the 5196 and 5199 bytes of
  the files, and reads them back; the second is accepted by `start_session` in its hour only. Signatures are not computed in Lean there; a Python script
  (not part of this repository) found both valid, with RSA and SHA-256, for the bytes before the signature.
* That the statements in `Verif/Props` and the definitions in `Verif/Spec` say what the claims mean.

### Parameters and their laws

Theorems hold for every value of these parameters that satisfies the law named in the statement.

| parameter | stands for | law | satisfied by |
|---|---|---|---|
| `Uni` | `str.isspace`, `isdigit`, `isalpha`, `lower`, `upper`, decimal value of digits, limit of `int` on digits, rounding to binary64 | `Uni.Lawful`: agreement with ASCII, digits are neither spaces nor letters, letters are not spaces, only ASCII texts lower-case to a reserved word, changing the case of ASCII letters does not change `lower`, ASCII prefixes are lower-cased by themselves | `asciiUni`, `superscriptUni`, `greekUni`; `cpythonUni` differs from `asciiUni` in the numbers only |
| `Crypto` | RSA keys, PKCS#1 signatures, SHA-256 | `Crypto.Lawful`: signatures verify under the exported public key and are not empty | `toyCrypto` |
| `Bcrypt` | `bcrypt.checkpw`, `bcrypt.hashpw` | none; for `hash_recorded`, that the right password hashes to the stored hash | `plainBcrypt` |
| `Keys` | RSA keys of clients | none; where needed, that generated keys have the size asked for | `sampleKeys` |
| `collate` | how the database compares texts | none; where needed, that distinct texts differ | `id` |
| `nan` | what decoding a binary32 NaN gives | none | |
| `Texts`, `FloatReader` | `repr` of finite floats, sets and objects, which characters are printable, how Python reads a float | `Lawful`: texts of floats consist of characters of numbers, are no ints and are read back | `sampleTexts`, `sampleReader` |
| `LogEnv` | `abspath`, which files can be opened, which formats are accepted, the text of a line, the time | none | `sampleLogEnv` |
| clock, random numbers, faults of commits, replies of services, connections | the environment | none | |

Unforgeability of signatures and collision resistance of hashes are not assumed anywhere. Theorems about reuse of serial
numbers name equality of hashes where it matters.

## Modelling conventions

* Python exceptions are values of `PyExc`, functions return `Except PyExc α` (or a state with an
  optional exception when state written before the exception stays observable).
* A Python `str` is `List Char` (`Str`). Lean's `Char` excludes surrogates; lone surrogates
  in Python strings are not modelled.
* Python `int` is `Int`. A Python `float` is `fin (q : Rat)` or an infinity; NaN is not
  producible by the lexer and is not modelled except as the result of decoding; -0.0 is identified with 0.0
  (they compare equal in Python). Rounding of decimal literals to binary64 is part of `Uni`.
* Objects with identity (symbols, engines) live in heaps or carry a number. AST nodes are trees, and graphs of ids after decoding.
* Loops and recursion without a structural measure take fuel. For each a theorem shows that the fuel given is enough
  (`tokenize_terminates`, `parse_refines_grammar`, `getConf_terminates`), so that fuel is not part of any claim.
* Databases are lists of rows per table; the order of the list is the order of query results.

## What is modelled

| source | model | notes |
|---|---|---|
| `hgpl/lexing.py` | `Token`, `Lexer`, `LexerObj`, `Texts`, `Messages` | all; `Messages` is the lexer again with messages and tokens of errors |
| `hgpl/parsing.py` | `Parser`, `Messages` | all; `Messages` is the parser again with messages and tokens of errors |
| `hgpl/ast.py` | `ThreeVal`, `AST`, `Encoder`, `NodeCount`, `NodeRace`, `Texts` | all; `end_token` of sets is given to `repr` as a function of ids |
| recursion in `hgpl` | `Depth` | parser rules, `_evaluate_node`, `_scan_tree`, `_encode_node`, `__eq__` again, with a limit on the frames of these functions; frames of the functions they call for a moment are not counted, so the limit stands for what is left of CPython's |
| `hgpl/symbols.py` | `Symbols`, `Texts` | all |
| `hgpl/interpreting.py` | `Interpreter` | all; with the texts of messages (`Model/InterpMessages`); the node and the operands a warning keeps are not |
| `hgpl/semantics.py` | `TypeChecker` | all; with the texts of messages (`Model/CheckMessages`) |
| `hgpl/errors.py` | `Errors`, `SyntaxErr` | `near` and `__str__`; fields of `LexerError` and `ParserError` |
| `hgpl/gui/demos.py` | `PolicyGui`, `PolicyConsole`, `PolicyTrees`, `DemoData` | the example data; effects of the buttons and of editing attributes, the text of the console, the rows of the trees as the objects inserted; layout, the texts Tk makes of the objects and selection are not |
| `hgaa/attcert.py` | `AttCert` | all; contents of a bytearray after an exception are not |
| `hgaa/config.py` | `Config`, `IniFile`, `Shipped` | all; `IniFile` is a model of what the module uses of CPython's `configparser`. Decoding the bytes of the files is not modelled |
| `hgaa/database.py` | `Database`, `Tools`, `AAuthLog`, `ToolsLog` | all, with the records; faults of the database other than primary keys in use are inputs |
| `hgaa/handler.py`, `hgaa/services/__init__.py` | `Handler` | all; exceptions of Ladon and `wsgiref` are inputs, and `serve_forever` returns |
| `hgaa/log.py` | `Log`, `Logging` | all of `hgaa/log.py`, with the parts of CPython's `logging` it uses: loggers, parents, levels, handlers, files |
| `hgaa/services/aauth.py` | `AAuth`, `AAuthLog`, `AAuthStart`, `ConcurrentIssue` | all, with the records, durations in which are inputs. `attribute_request` also with steps of calls at the same time: queries see any states, files are written and read in pieces, any step may fail |
| `hgaa/services/pauth.py` | `PAuth`, `PAuthLog`, `Concurrent`, `SessionKeys` | all, with the records; lengths of columns in `Columns`. `start_session` also with steps of calls at the same time: a query sees any committed state, a commit is atomic; `SessionKeys` adds wipes and additions by `populate_db` between the steps |
| `hgaa/clients/aauth.py`, `hgaa/clients/pauth.py` | `Clients`, `ClientsLog` | all, with the records; replies of the JSON-WSP client are inputs |
| `hgaa/clients/demos/aauth.py` | `AAuthGui`, `CertTree` | effects of all buttons and the tree drawn of a certificate; layout, how the widgets write numbers, `None` and bytes, and times in texts are not; that `datetime.fromtimestamp` knows all times of 32 bits is a hypothesis (`DatesKnown`) |
| `hgaa/schema`, `hgaa/schema/test` | `AAuth`, `PAuth`, `SampleData`, `Columns`, `ForeignKeys`, `SessionKeys` | the tables, their primary keys and the rows of the sample data; `Columns` says what fits a column of MySQL in strict mode (from its documentation, not tried); `ForeignKeys` has the foreign keys of the attribute authority, `SessionKeys` those of the policy authority |
| `hgaa/tools.py` | `Database`, `Tools`, `ToolsLog` | all, with what is printed and recorded; what RSA, bcrypt and files do is an input |

Not modelled: tests (but see the trusted base), the console demos, widgets and layout of the GUI, Ladon's transport, SQL text generation, column types other than in `Columns`, locks, threads and filters of `logging`,
memory, recursion limits other than in `Depth`, the limit of `%d` on huge integers, concurrent calls other than of `start_session` and `attribute_request` and of node constructors,
faults of the file system other than in `ConcurrentIssue`, NULL in the `type` column of attributes.

## Methods per property

| id | model | proof |
|---|---|---|
| C01 C02 | `ASTResult` | case analysis for the tables; induction over formula trees for nested claims |
| C03–C08 C61 | `Lexer` as a state machine over remaining text | refinement to a declarative tokenization relation by induction on the text |
| C109 | the `Lexer` object with the place where an exception leaves it | one step for every state, induction over calls |
| C09–C14 C59 C62–C64 | `Parser` as recursive descent over the token list | soundness and completeness against an inductive grammar; unambiguity by induction on derivations |
| C115–C117 | rules and tree walks with a number of frames left | induction over the rules with the depth of the tokens consumed; induction over trees; the chain policies by induction on their length |
| C118–C120 | `__str__` and `__repr__` as functions to texts | a reader of Python calls and literals (`Spec/PyExpr`), which reads back every text, by induction over trees; rows of `str(ast)` are cut uniquely and determine the tree |
| C121 | exact refinement of evaluate (`evaluate_refines`) | a static condition on syntax trees (`Spec/Robust`); induction over policies both ways, with the table of empty sets as the witness |
| C122 | `evaluate` on trees left by earlier calls | a semantics over histories of tables (`Spec/Again`) that says what is kept; an invariant of the tree after any calls, also those that raised, by induction over policies and over calls |
| C15–C25 C65–C67 | `Interpreter` with in-place results | refinement to a denotational semantics; monotonicity and locality by induction on syntax trees |
| C26 C27 C68 | `SymbolTable`, `SymbolTableBuilder` | simulation of an abstract map over operation sequences |
| C28–C32 C69 | `TypeChecker` | refinement to a specification over syntax trees; induction over the comparisons in order |
| C33–C35 C72 | `ASTEncoder`, `struct` formats, base64 | format relation, round trip by induction, decoder invariant; binary32 rounding against mantissa and exponent |
| C36–C44 C70 C71 | `hgaa/attcert.py` | wire format relation with arbitrary suffix; injectivity of the body; laws of `__eq__` |
| C45–C48 C76–C82 | attribute authority | exact conditions of issue over all databases; histories of stored files |
| C49–C54 C83–C87 | policy authority | exact conditions, invariant of the tables over histories |
| C55 C56 C73–C75 | configuration, engines, logging | exact lookup relation; invariant over call histories |
| C110–C112 | loggers, open files and the disk as a state | exact state after the import; non-interference of old contents; invariant (each file open once, at its end) over all records |
| C113 C114 | `get_engine` and `attribute_request` as computations that make records | exact records by cases, result as without records; independence of runs from secrets; composition with C112 |
| C123 | requests to the policy authority as computations that make records | exact records by cases, closed under sequencing; independence of runs from the session; counting over histories |
| C124 C125 | lexer and parser with messages, positions, tokens and rules of errors | erasure to the functions without messages; a list of bad beginnings against the scanner; a table-driven automaton against recursive descent |
| C126 C127 | messages of the type checker, `str` of errors in `evaluate` of the policy authority | erasure to the checker without messages; an invariant tying the symbol table to the first attributes seen; uniqueness of what is said gives an equivalence with the specification (`Spec/CheckErrors`) |
| C128 C129 | messages of the interpreter, `str` of warnings and errors | erasure to the interpreter without messages; remarks of a policy defined on the syntax tree (`Spec/Warnings`), simulation by induction; a relation between two evaluations whose attributes are of the same kinds |
| C106–C108 | configuration files | simulation of the reader line by line over all documents; the expansion of `%` against a relation; the shipped texts by computation, transferred to every lawful `Uni` |
| C94–C98 | filling databases, generated attributes, command line | exact effect over all contents of databases; exact set of command lines |
| C99 C100 | policy demo as a state machine over user actions | invariant over histories; exact effect of an edit |
| C130 | text of the console of the policy demo | what each button writes against the specifications of C124–C128; induction over histories from the invariant of C99; uniqueness |
| C134 C135 | rows of the trees of the policy demo | invariant over histories relating what was drawn last to the specifications of C133 and C28; the table with which Interpret last found a value as a relation on histories |
| C136 | decimal numbers in policies | correctness of rounding (`f64`, what CPython's `float` is documented to do: nearest, ties to even) against the definition of binary64 numbers, uniqueness, monotonicity and relative error of rounding, then the semantics of C15 on texts made of two numerals and any white space |
| C137 | the process-wide counter of node ids | the parser and the decoder run again with the counter kept through exceptions; agreement with the models without it rule by rule (a potential: counter plus tokens not yet eaten), byte accounting for records, induction over the calls of a process |
| C138 | texts of policies put into a form of NOT, AND and OR | the tokens of bracketed texts joined give the tree of the form (lexemes keep their boundaries), then the semantics; for the converse a text for each outcome (TRUE, FALSE, UNDEF, raising) in one environment |
| C139 | reads and writes of the node counter by threads in any order | invariant of the prefix before the first disturbed write (ids are consecutive); decoding of repeated ids (the last record is kept) for all trees; a schedule for every policy of two equally large halves |
| C140 | tree of a certificate in the demo window | sections and groups found by title and depth in any stack of sections, uniqueness of what can be read, drawings ordered by how far they get |
| C142 | columns of the policy authority's tables | the theorem of C50 on what a session adds, and which of the added values fit; C92 for issued certificates |
| C143 | grammar of version 1 against that of version 2 | both derive the same rows of operands (mutual induction over derivations; a row is determined by its tokens), values of the two trees of a row compared by recursion over rows; a text of TRUE and NOT TRUE for every sequence of operators |
| C144 | foreign keys of the attribute authority | a second database that refuses dangling assignments, proved equal to the first where references hold; invariant over sequences of tools; the join as a filter of the assignments |
| C145 | types that promise a decision | soundness and completeness of typing rules for the semantics of policies by induction, with a table that keeps the promises as witness; comparison with the reports of the type checker |
| C146 | the example policies of the demo | invariant of all runs of the window: values keep the types; typing rules of C145 for the three policies; their trees and table computed by the kernel |
| C147 | `hgaa/handler.py` as a program with records and calls of Ladon | symbolic execution for all settings; the URLs from C82 and C85 |
| C148 | foreign keys of the policy authority, wipes while it serves | the steps of C104 with a commit that checks references, wipes and additions as further steps; two invariants over all orders, one of them as long as rows are only added |
| C149 | output of the tools | programs that put out lines, records and files before they end; erasing the output gives the models of C73, C94, C97 and C98; secrets by comparing two runs |
| C150 | `start_session` run twice | the exact description of sessions in C50 and C52 for both lists, certificates compared one by one; the callers by rewriting the program |
| C151 | `__init__` and `info` as computations that make records | as C113; how bytes are shown is a prefix code |
| C152 | methods of the clients as programs that put out records and requests | exact output call by call as a function of what is shown of a client, simulation over histories; an invariant (the name of the service is the one connected to) |
| C153 | encoders of certificates and ASTs, `issue`, `startSessionStrict` | lengths of the parts by induction over lists and trees, bounds by induction over the tokens of a text; exact conditions from the descriptions of the formats |
| C154 | `attribute_request` of the attribute authority | equality of two runs from agreement of the rows about one name; exchange of the key in the description of the certificate |
| C155 | `_make_ac`, `attribute_request` | texts cut at the last bracket and at `/user/`, by induction and cases on the overlap |
| C156 | evaluation | induction on the policy: values for the missing attributes that make it TRUE or FALSE are put together from those of its parts, whose attributes are different |
| C157 | evaluation | induction on the policy: the other operand of AND or OR is given the truth value that does not matter, by C156 |
| C158 | evaluation | from C156 for the table without symbols and C157; two tables that differ in one attribute extend the one without it |
| C159 | type checker, evaluation | from C145 (what passes is well typed for the inferred promises), C156 and C158 |
| C160 | evaluation | induction on the policy with the direction as a parameter, which NOT turns round; the orderings are monotone in each operand |
| C161 | evaluation | the same induction as for C160; IN and SUBSET are monotone or antitone in each side, given that equality of values is transitive |
| C162 | evaluation | induction on the number of attributes with a decision by cases written in Kleene's logic; the converse by monotonicity (C19) on tables that leave out UNDEF |
| C163 | evaluation | the induction of C162 with a decision by cases without negations; the converse by C160 on tables that differ in one attribute |
| C164 | evaluation | each operator on a growing number and a fixed operand is eventually constant, then induction over the policy |
| C165 | evaluation | as C164, with all but finitely many texts in place of large numbers |
| C166 | evaluation, printing | a policy by induction on the number of thresholds; the converse by C164 on tables with one attribute, with the bound of the literals where digits are limited |
| C167 | lexer, evaluation, printing | a policy by induction on the list; the converse as C165, with the literals of the policy as the list |
| C168 | evaluation, printing | each float but 0 has a decimal literal; a policy by induction on the list of all floats |
| C169 | evaluation, printing | IN for each listed text and one SUBSET; a policy by induction on the tests a decision depends on; the converse by induction on the policy, with its literals as the list |
| C170 | evaluation | operators preserve the relation between operands, then induction on the policy |
| C171 | evaluation, printing | a policy by induction on thresholds and the order of the two; the converse from C170 with a bound on the literals |
| C172 | evaluation, printing | a policy by induction on tests of equality; the converse from C170 with the literals as the list |
| C141 | the sample data | the theorems of C46, C47, C50, C92, C95 and C108 applied to the sample rows; facts about these rows by evaluation |
| C131 C132 | calls of `attribute_request` as steps in any order, with files written in pieces | projection to one call alone, whose state is an invariant of its own steps; for equal serial numbers schedules given for all calls |
| C104 C105 | calls of `start_session` as steps in any order | simulation: an unfinished call could be made again in every later state; linearization at commits |
| C101–C103 | attribute authority demo as a state machine over user actions and answers | exact effect of a request by induction over attempts; invariants over histories |
| C57 C60 | `HGPLError.near`, `ASTNode.__eq__` | list slices; induction on trees |
| C58 C88–C91 | clients | invariants over call histories with arbitrary replies |
| C92 C93 | client, attribute authority and policy authority together | composition of the above |

## Claims that are false as worded

Each has a theorem with a witness and a weaker theorem named `…_partial`, or an exact condition; status `partial` in the manifest.

| id | what happens | theorems |
|---|---|---|
| C07 | a text ending in `user.` or the like raises AttributeError; digits without decimal value (superscripts) raise ValueError | `lexer_attribute_error`, `lexer_value_error`, `lexer_failures` |
| C12 | texts ending where an expression must follow raise IndexError | `parse_index_error`, `parse_text_failures` |
| C17 | results stored in nodes are used again with the next table; exactly which is C122 | `reevaluate_stale`, `reevaluate_exact` |
| C18 | with a literal 0, 0.0 or `""` on the other side the comparison raises InterpreterError | `unusable_undef`, `unusable_never_grants` |
| C22 | falsy literals and sets with NULL make accepted policies raise; exactly which policies can raise is C121 | `evaluate_crashes`, `never_raises_iff` |
| C25 | final sigma in names; keys of the dictionary of types are not lower-cased | `sigma_lost`, `type_case_lost` |
| C48 | the weekday's id is used twice in every issued certificate, so that no issued certificate equals itself | `issued_ids_repeat` |
| C50 | unknown format numbers raise ValueError | `unknown_format` |
| C51 | stored keys of authorities are never compared: anybody can make certificates of any trusted authority | `keys_ignored`, `forged` |
| C53 | for BYTES the hash stored is that of the emptied bytearray, so every certificate has the same | `bytes_hash`, `bytes_reuse` |
| C58 | an answer without fault and result replaces `last_key` | `lastKey_without_result` |
| C103 | a new certificate does not reset the label, so `Verified: TRUE` is shown of unsigned certificates; bytes that are no certificate replace those of the certificate | `label_forged`, `undecodable` |
| C109 | a lexer that raised reads on behind the fault when it is used again: `Parser(lexer)` makes the tree of `user.admin` from the lexer of `user.admin "x` | `parse_after_error`, `open_string`, `stuck_partial` |

## Further disagreements between code and documentation or intent

Policy language:

* The ABNF allows boolean atomics, the parser does not (`documented_rejected`).
* A policy that is a bare attribute returns the `Symbol` object (C65). `=` between an attribute and a set literal is always UNDEF (C66).
* The first of two names that differ in case only wins (`builder_case_clash`).
* The prefix of names of unknown class is `unkown.`; a final sigma makes `check` raise Exception (`check_sigma`);
  `user.a < {1}` is not reported; NULL is treated differently on the two sides.
* Policy demo: after a failed tokenization or parse only Reset helps. Editing a set always gives a set of texts, so resubmitting a set
  of integers as shown changes decisions; an empty text gives `{''}`. A policy that is a bare attribute shows its name (C99, C100).
* Policies of many conditions joined by AND and OR parse in constant depth, but evaluation, type check, encoding and comparison recurse once per
  condition and raise RecursionError (C117), which is no HGPLError.
* `repr` of tokens leaves out the values 0, 0.0 and `""`, so that `eval(repr(ast)) != ast` for policies with these literals; infinite floats cannot be evaluated (C118).
  `str(symbol_table)` raises AttributeError for every table with a symbol (C120). Line breaks in attribute values forge rows of `str(ast)` (`tree_str_forged`).
* The message about '!' without '=' always names '!' as the character found. The default message of `_eat` and the messages about braces are dead (C125).
* The record of an invalid policy and the fault sent to the client show up to 21 characters of the policy around the error as they are, line breaks included: a client can write the beginning of a line of up to 11 characters into the log (`fault_forged`, C127). An unknown identifier is shown in full, however long (`fault_identifier`).
* `attribute_request` answers with what it reads back from a file named after the random serial number, not with the bytes it has made; calls with the same serial number can get each other's certificates (`serial_swapped`, `serial_mixed`, C132).
* The policy demo lists warnings only if evaluation does not fail: after an error the warnings before it are not shown (`InterpretSays`, C130).
* The policy demo redraws the AST and the symbols only after an Interpret that finds a value: after an edit, or an Interpret that fails, they
  show results and values of an older table (`trees_show`, C134). The row of an attribute of no listed class shows a value the table did not
  get (`row_unlisted`, C135).
* Policies written for version 1 of the grammar are accepted, but where an OR stands behind an AND they may allow more than version 1 says
  (less within negated parentheses; `v1_below`, `v1_differs`, `v1_negated`, C143).
* `gen_atts` on a database without a user 1 leaves assignments nobody owns unless foreign keys are checked; they belong to whoever is
  stored with that number later (`genatts_orphans`, C144).
* The type checker passes `user.a = {1}`, which no value of `user.a` decides, and `user.a = NULL`, and warns of `user.a = 1 AND user.a = user.b`,
  which all numbers decide (`set_never`, `missed`, `warned`, C145).
* The server listens at the number in `SERVICE_PORT`, but the URLs of the services repeat its text: with `8_888` they name no port (`handler_urls`, C147).
* Filling the tables of the policy authority while it serves: a session is granted after the wipe with the authorities read before it, and without a stored certificate unless foreign keys are checked (`wiped_trust`, `wiped_orphan`, C148).
* `genkey` empties the file of the old key before it writes the new one, so that the old key is lost if writing fails (`genkey_truncates`, C149).
* `populate` with an unknown service prints `Unknown key type`, and the line for a missing command names two of the five commands (`UsageLines`, C149).
* A certificate is a bearer token: nothing in `start_session` compares the holder with the caller or the holders of several certificates with each other, and the places where revocations are published are not looked at (`bearer`, `any_caller`, `pooled`, C150).
* What keeps the attribute authority from starting is not recorded by it (`setup_fails`, C151).
* After an `update_service` that fails to connect the clients record the name of the new service while they send requests to the old one (`misnamed`, C152).
* The attribute authority issues certificates of any size up to 2^16 attributes of 2^16 characters each, but the policy authority can only store those of 65535 bytes as they are sent, 49149 bytes before base 64 (`issued_room_iff`, `value_issued`, C153).
* The attribute authority certifies the key, key size and cipher that a client claims without checking them or asking for a proof that the client has the private key (`key_unchecked`, `key_chosen`, C154); policies about `connection.pub_key_size` trust the client.
* With a bcrypt that reads 72 bytes the pepper protects no password of 72 bytes or more (`long_password`, C154).
* Users of different authorities can have the same uid, such as user/bob of /aa and bob of /aa/user (`uid_iff`, `holder_uid_iff`, C155); names without a slash cannot.
* UNDEF does not always mean that the decision is open: `user.a = 1 OR user.a != 1` is UNDEF while user.a is missing (`twice_open`, C156). It does for policies that mention each attribute once (`undecided_iff`).
- Node ids: failing parses and `decode` use up ids as well (`failed_parse_counts`, C137), and ids are stored in sixteen bits, so a process
  that has made 65536 nodes can encode no policy it parses from then on (`never_again`); decoded trees repeat the ids of their encodings
- Node ids and threads: the counter is read and written without a lock, so threads that parse at the same time can get equal ids, and the
  encoding of `P AND Q` can be decoded as `Q AND Q` (`race_forgets`, C139)
- The tree of a certificate does not show the further bytes of attributes, nor whether a value is absent or the word `none`, so
  different signed certificates look the same (`tree_hides`, C140)
- Certificates hold unsigned times of 32 bits, the columns of the policy authority signed ones: with a strict MySQL no session starts from January 2038 on,
  nor with certificates that end then or later (sent alone; `strict_2038`, `issued_2038`, C142).
- The sample policies are stored under `hgabc://`, but the authorities are called `hgabac://` (`sample_policies_unknown`, C141); the key in the
  sample is never compared with that of a certificate (`sample_session`).
- Numbers in policies: an integer above 2^53 is compared exactly with a rounded decimal number, so `18014398509481985 > 18014398509481985.5` is
  TRUE (`integer_swapped`, C136); decimals that differ after the 15th digit can be equal, and decimals below 2^-1075 are refused like 0
  (`read_alike`, `read_extremes`).
* Warnings about an operator have no position: their text names the operator but not the comparison (`evaluate_says`, C128). `invalid operation` and rules other than `evaluate_node` and those of NOT, AND, OR never appear in errors of policies that come from a text.
* A set node of a hand-made tree that cannot be evaluated keeps the elements before the unusable one; the next call uses them (`set_cut`, C122).
* `near` with a negative width gives an empty or misplaced excerpt (example beside C57).
* The encoder loses empty strings, non-ASCII characters, digits of floats, and fails on ids and ints out of range (C34).
  Decoded graphs may contain cycles (`decode_cycle`).

Certificates:

* `__eq__` is neither reflexive nor symmetric with repeated ids, raises TypeError when exactly one list is None, and ignores names (C43).
* A text is cut to as many bytes as it has characters, so that different certificates have the same signed bytes (C41).
* Names of algorithms are not bound to the key (`algorithm_names_ignored`); the size of the serial number is malleable (`bytes_malleable`);
  a cut signature is accepted without verification (`cut_signature_accepted`).
* Line breaks in values forge lines of the TEXT export (`text_forged`).

Services, configuration and clients:

* Sections of configuration files whose names are not in upper case are never read (C55). WARN and INFO are swapped for Ladon (`ladon_level_swapped`).
  An empty LOG_FILE is opened as it is. `build_database` creates tables through engines the services do not use, which matters for memory databases (C73);
  the policy authority opens the attribute authority's database. `handler.py` imports `ServiceList` from an empty package.
* A configuration file that is missing is passed over in silence (`read_missing`). A single `%` in a value, as in a password, makes
  every use of that value raise (`expand_lone`, `file_raises`). An indented option is swallowed by the value before it (example beside C107).
  The shipped file sets REV_URL, which is not read (`shipped_aauth`).
* Importing `hgaa/log.py` for a client empties the logs of the services (C110, `client_wipes_service`; a TODO in the code says so), and running services then
  leave gaps (`gap_after_wipe`). The directory `hgaa/logs` is not in the repository, so the import fails until it is made. `LOG_FILE=None` for Ladon gives a
  file `None`. Without configuration files three handlers write over each other in one file (`builtin_clobbered`). LOG_STDOUT writes to the standard error.
  The level of DEFAULT does not hold for sections with a level of their own (C111). A log name beginning with a dot takes the logger out of its family. In the shipped file both clients have the log name `aauth`.
* At the level of the shipped files the password of the database (C113) and the stored hash of every user who logs in (`hash_in_file`) are written to the
  log. Line breaks in user names make lines of their own, so that anybody can record a login (`forged_line`). The type of unsupported credentials is only recorded at level DEBUG.
* Shortened version 6 addresses raise ValueError (C77). A missing password is the password `None` (C81). Holders are named as the
  client wrote the name (C80). The revocation URL is read from REV_URI (C82). Weekday and month names are in local time, numbers in GMT.
  `map(str.strip, …)` without a consumer strips nothing.
* `evaluate` of the policy authority always raises (C54). BASE64FULL certificates are always refused. Untrusted authorities are
  listed as trusted (C83). Of two calls at the same time with the same new certificate one raises IntegrityError (`race`). Databases that ignore case confuse serial numbers (C86).
* Filling a database twice with the same objects and `wipe_first` empties it (C95); a failure after the wipe loses the old rows (C94).
  Without a `_TEST` section, as shipped, `use_test_db` wipes the production database (C96). Rows for the policy authority are stored in
  the database of `PAUTH`, but read from that of `AAUTH` (C96). `build ALL` fails and unknown commands do nothing (C98).
* Attribute authority demo: after an address that cannot be reached, the second click sends the password to the service used before,
  while the window shows the new address (`requests_elsewhere`).
* `KEY_SIZE` has no default, so that no client can be made without configuring it (C90). After a failed `update_service` the
  description does not name the service in use (C88). Faults of `info` become KeyErrors and `start_session` never looks at the status (C91).

## Axioms

Output of `#print axioms` for the theorems in the manifest.

* no axioms: `tri_ops_rank`, `tri_laws`, `evalTri_mono`, `truth_iff`, `truth_ops`, `sample_fits`, `verify_time_clock`, `exportFormat_values`, `bytes_hash`, `revocation_make`, `info_make`, `empty_consistent`, `serial_case_clash`, `ask_fault`, `start_answer`

* `propext`: `rank_injective`, `evalTri_rank`, `verify_click`, `escape_plain`, `value_single`, `read_crlf`, `gap_after_wipe`, `unfolds_unique`, `unsigned_fails`, `rejected_fails`, `algorithm_names_ignored`, `verify_time_iff`, `formats_accepted`, `default_validity`, `attribute_make`, `attribute_make_clean`

* `Quot.sound`, `propext`: `evalTri_classical`, `add_iff`, `expand_fuel`, `expand_escape`, `expand_escape_append`, `expand_plain`, `expand_lone`, `expand_ref`, `expand_missing`, `expand_self`, `resolve_escaped`, `overwritten`, `operators_match`, `hexlify_shows`, `sample_user`, `sample_trusted`, `delete_children_first`, `delete_parents_first`, `delete_in_order`, `wipe_empties`, `delete_parents_refused`, `body_size`, `cert_size`, `op_negations`, `subset_iff`, `subset_refl`, `subset_trans`, `subset_order`, `in_iff_mem`, `in_iff_overlap`, `cycle_no_tree`, `issuer_delimited`, `holder_delimited`, `info_delimited`, `attribute_delimited`, `revocation_delimited`, `delegation_delimited`, `extension_delimited`, `signature_delimited`, `body_delimited`, `signed_bytes_bind`, `verify_iff`, `sign_verifies`, `content_verifies`, `bad_signature_refused`, `extra_bytes_refused`, `text_cut`, `findUser_iff`, `eqv_self_ok`, `signed_partial`, `near_contiguous`, `near_none`, `receive_error`, `ask_iff`, `ask_error`

* `Classical.choice`, `Quot.sound`, `propext`: `lexer_refines_grammar`, `tokenize_unfold`, `tokenize_terminates`, `tokens_bracketed`, `tokenize_idempotent`, `token_positions`, `lex_render`, `lex_spaced`, `whitespace_insensitive`, `keyword_case_insensitive`, `attclass_case_insensitive`, `lexer_failures`, `lexer_errors_partial`, `lexer_attribute_error`, `lexer_value_error`, `att_list_eq`, `parse_refines_grammar`, `parse_state_iff`, `parse_lexed`, `parse_sound_documented`, `documented_rejected`, `grammar_unambiguous`, `and_over_or`, `chains_left_assoc`, `not_and_parens`, `edit_value`, `edit_no_value`, `edit_unlisted`, `edit_atts`, `run_setsOk`, `run_filed`, `step_sent`, `requests_shown`, `requests_elsewhere`, `request_sends`, `typed`, `new_window`, `info_shown`, `unreachable_raises`, `run_lists`, `shown_key`, `request_answered`, `request_not_retried`, `key_shown`, `added`, `deleted`, `cleared`, `run_waits`, `step_label`, `label_right_partial`, `label_right_run_partial`, `label_stale`, `label_forged`, `sameCert_step`, `undecodable`, `views`, `view_events`, `view_imports`, `issued_shown`, `concurrent_serial`, `concurrent_consistent`, `call_ends`, `ended_alone`, `refused_alone`, `commit_alone`, `commit_lost`, `race`, `expand_iff`, `expands_unique`, `getText_eq`, `getText_resolve`, `file_setting`, `file_raises`, `lower_section_ignored`, `read_document`, `value_noted`, `read_newline`, `read_missing`, `read_duplicate_section`, `read_duplicate_option`, `read_no_header`, `read_bad_line`, `read_ok`, `readConfig_ok`, `shipped_read`, `shipped_resolved`, `shipped_pauth`, `shipped_aauth`, `shipped_client`, `shipped_pclient`, `shipped_connected`, `shipped_enabled`, `shipped_engine`, `next_step`, `next_later`, `nexts_keep`, `new_keep`, `ended_stays`, `tokenString_eq`, `error_token`, `tokenize_new`, `parse_new`, `open_string`, `stuck_partial`, `parse_after_error`, `print_parse`, `spelling_exists`, `parse_tree`, `import_ok`, `importSettings_exist`, `import_opened`, `import_untouched`, `import_kept`, `import_wiped`, `client_wipes_service`, `makeLogger_ok`, `makeForeign_ok`, `import_ready`, `log`, `made`, `record_routing`, `ready_ancestors`, `makeLogger_parent`, `log_history`, `error_lines`, `import_sound`, `made_sound`, `one_line`, `builtin_clobbered`, `shipped_sound`, `engine_records`, `engine_secret`, `engine_password`, `password_in_file`, `password_kept`, `record_shown`, `log_dropped`, `request_result`, `request_records`, `login_record`, `login_recorded`, `unknown_recorded`, `refused_recorded`, `issued_recorded`, `secrets_kept`, `hash_recorded`, `hash_in_file`, `forged_line`, `not_assigned_texts`, `parse_limit`, `parse_limited`, `evaluate_limit`, `check_limit`, `encode_limit`, `eq_limit`, `height_exists`, `chain_limit`, `long_evaluate`, `long_check`, `long_encode`, `token_repr`, `token_repr_exact`, `node_repr`, `node_repr_exact`, `node_repr_injective`, `parsed_repr`, `parsed_repr_injective`, `sample_lawful`, `tree_str_same`, `tree_str_error`, `tree_str_forged`, `result_texts`, `parse_errors_partial`, `parse_failures`, `parse_text_failures`, `expExpected_last`, `parse_index_error`, `token_str_same`, `lexed_str_same`, `lexed_typed`, `table_str`, `never_raises`, `never_raises_iff`, `robust_truth`, `emptyEnv_listsOk`, `reevaluate_exact`, `policyAgain_one`, `true_kept`, `and_kept`, `or_kept`, `not_kept`, `cmp_kept`, `set_exact`, `set_cut`, `start_trail`, `start_records`, `start_result`, `start_one_record`, `session_recorded`, `start_secret`, `record_without_session`, `history_records`, `evaluate_trail`, `pauth_info_trail`, `trusted_trail`, `pauth_init_trail`, `lex_error_iff`, `lex_or_error`, `lex_error_place`, `tokenize_error_token`, `lexTokensM_exc`, `parse_error_iff`, `parse_text_error_iff`, `verdict_none_iff`, `parse_error_first`, `parse_error_paren`, `parse_error_text`, `parseTokensM_exc`, `parseTextM_exc`, `check_messages`, `says_unique`, `shown_unique`, `shown_ascii`, `fault_iff`, `fault_none`, `fault_recorded`, `fault_shape`, `around_part`, `fault_forged`, `fault_identifier`, `interp_forget`, `remarks_pos`, `evaluate_says`, `warnings_tell_kinds`, `par_policy`, `remarksAtt_sort`, `parse_tokens`, `parse_twice`, `console_step`, `console_run`, `paragraph_unique`, `wroteTokenize_says`, `wroteParse_says`, `wroteCheck_says`, `wroteInterpret_says`, `calls_apart`, `other_files`, `answer_own`, `answer_alone`, `raised_own`, `fault_own`, `issue_ends`, `issueSeen_same`, `serial_swapped`, `serial_mixed`, `nodes_read`, `nodes_full_iff`, `literal_node`, `trees_show`, `lastTable_unique`, `run_drew`, `checked_rows`, `draw_shows`, `rows_agree`, `row_edited`, `rows_kept`, `row_unlisted`, `mistaken`, `numbers_compared`, `numbers_sound`, `numbers_exact`, `short_numbers`, `integers_exact`, `operands_compared`, `read_alike`, `integer_swapped`, `read_extremes`, `parse_counted`, `decode_counted`, `counter_bounds`, `worn_out`, `never_again`, `still_room`, `decoded_ids_repeat`, `failed_parse_counts`, `template_gives`, `law_sound`, `law_complete`, `law_iff`, `law_place`, `law_expand`, `law_congr`, `named_laws`, `shortening_laws`, `not_laws`, `ids_distinct_iff`, `taken_round_trip`, `calm_round_trip`, `forgets_left`, `race_forgets`, `parse_shape`, `tree_reads`, `tree_same_iff`, `tree_error`, `tree_complete_iff`, `tree_prefix`, `received_tree`, `window_tree`, `issued_tree`, `tree_hides`, `tree_hides_empty`, `serial_reads`, `reads_unique`, `sample_stored`, `sample_pstored`, `sample_assigned`, `sample_selected`, `sample_issued`, `sample_session`, `sample_refused`, `sample_policies_unknown`, `strict_iff`, `room_iff`, `strict_cases`, `strict_2038`, `strict_fitting`, `issued_2038`, `issued_room`, `v1_rows`, `v2_rows`, `v1_texts`, `row_tokens_inj`, `v1_unambiguous`, `written_row`, `written_unique`, `v1_defined`, `v1_same`, `v1_below`, `v1_allows`, `v1_differs`, `v1_negated`, `genatts_linked`, `genatts_unlinked`, `wipe_linked`, `populate_linked`, `sample_unrefused`, `popAndGen_linked`, `tools_linked`, `genatts_keeps`, `genatts_orphans`, `visible_assignments`, `all_visible`, `typed_decides`, `untyped_fails`, `promiseEnv_ok`, `typed_iff`, `plain_passes`, `plain_decides`, `missed`, `set_never`, `warned`, `run_furnished`, `demo_decides`, `default_policies`, `default_table`, `default_typed`, `defaults_decide`, `defaults_reached`, `defaults_true`, `first_says`, `second_says`, `third_says`, `startSettings_exist`, `handler_import`, `handler_main`, `handler_noport`, `handler_noapp`, `handler_serves`, `handler_urls`, `shipped_serves`, `start_unrefused`, `run_unrefused`, `run_calls`, `traffic_sound`, `traffic_consistent`, `unwiped_consistent`, `wiped_orphan`, `wiped_trust`, `populate_output`, `populate_done`, `build_output`, `genkey_output`, `genkey_truncates`, `genatts_output`, `main_output`, `accepted_prints`, `secrets_unsaid`, `wiped_schema`, `evaluate_refines`, `evaluate_policy`, `bearer`, `any_caller`, `pooled`, `setup_fails`, `setup_records`, `setup_printable`, `setup_secrets`, `bytesRepr_printable`, `bytesRepr_inj`, `info_records`, `aclient_init`, `pclient_init`, `aclient_update`, `pclient_updates`, `aclient_info`, `pclient_ask`, `pclient_start`, `aclient_request`, `aclient_out`, `pclient_out`, `credentials_unrecorded`, `aclient_honest`, `pclient_honest`, `new_honest`, `misnamed`, `export_size`, `issued_size`, `certificate_fits`, `issuable_iff`, `issued_room_iff`, `tree_size`, `tree_encodes_iff`, `policy_size`, `policy_encodes_iff`, `value_issued`, `others_irrelevant`, `others_irrelevant_response`, `rows_added`, `nothing_learned`, `joined_only`, `long_password`, `key_unchecked`, `key_chosen`, `algo_determines`, `uid_iff`, `uid_unique`, `uid_same_authority`, `holder_uid_iff`, `holder_determines`, `has_value`, `certain_iff`, `undecided_iff`, `completion_keeps`, `twice_open`, `every_attribute_matters`, `no_replacement`, `same_attributes`, `constant_iff`, `nothing_known`, `every_attribute_needed`, `passed_certain`, `passed_matters`, `failed_open`, `evaluate_local`, `raised_for`, `never_lost`, `raised_against`, `never_gained`, `equality_lost`, `grown`, `growth_keeps`, `growth_refuses`, `growth_lost`, `expressible_iff`, `bare_expressible_iff`, `classical_expressible`, `certain_expressible`, `missing_untestable`, `rising_expressible_iff`, `numbers_settle`, `parity_untestable`, `texts_settle`, `only_listed_texts`, `start_untestable`, `settled_writable`, `number_decisions`, `number_decisions_limited`, `number_decisions_cpython`, `listed_writable`, `text_decisions`, `empty_untestable`, `float_decisions`, `double_literal`, `doubles_listed`, `sets_writable`, `set_decisions`, `size_untestable`, `reevaluate_same_partial`, `reevaluate_stale`, `matched_results`, `matched_gives`, `scale_free`, `names_free`, `pairs_writable`, `pair_decisions`, `difference_untestable`, `text_pairs_writable`, `text_pair_decisions`, `prefix_untestable`, `unusable_undef`, `unusable_never_grants`, `evaluate_mono`, `cmp_negations`, `cmp_duals`, `evaluate_safe_partial`, `evaluate_crashes`, `warning_threshold`, `evaluate_only_results`, `policy_case_partial`, `table_case_partial`, `sigma_lost`, `type_case_lost`, `table_refines_map`, `map_laws`, `builder_builds`, `builder_entry`, `builder_lookup`, `load_spec`, `key_class`, `builder_case_clash`, `check_result`, `result_none`, `raiseIssues_some`, `raiseIssues_none`, `check_no_internal`, `check_sigma`, `check_refines`, `check_table`, `check_errors`, `clash_literals`, `check_infers`, `typeAt_first`, `tells_iff`, `encode_format`, `encode_decode`, `encode_decode_iff`, `fresh_eq`, `base64_transparent`, `text_round_trip`, `parsed_round_trip`, `empty_string_lost`, `float_rounded`, `encode_fails`, `non_ascii_lost`, `decode_iff`, `decode_closed`, `decode_nodes`, `decode_ignores`, `stored_unique`, `decode_failures`, `decode_cycle`, `encode_succeeds_iff`, `round_trip`, `round_trip_iff`, `non_ascii_same_bytes`, `non_ascii_signature_moves`, `signed_export_imports`, `import_formats`, `decode_accepts`, `import_verified`, `prefix_accepted`, `encoded_prefix_accepted`, `unsigned_prefix_refused`, `cut_signature_accepted`, `bytes_malleable`, `non_ascii_changed`, `non_ascii_unreadable`, `eqv_iff`, `eqv_error_iff`, `eqv_distinct`, `eqv_refl`, `eqv_symm`, `eqv_trans`, `eqv_order`, `eqv_not_refl`, `eqv_not_symm`, `eqv_decoded_raises`, `export_formats`, `import_leaves`, `formats_unsupported`, `export_needs_key`, `export_without_key`, `issue_iff`, `issued_only_assigned`, `selection`, `selection_all`, `issued_selection`, `issued_certificate`, `issued_parts`, `issued_ids_partial`, `issued_ids_repeat`, `session_bounds`, `start_iff`, `start_errors`, `start_refused`, `unknown_format`, `start_reason`, `reason_or_accepted`, `keys_ignored`, `forged`, `forged_session`, `start_atomic`, `start_rows`, `reuse_detected_partial`, `history_reuse_partial`, `bytes_reuse`, `bytes_reuse_example`, `evaluate_raises`, `evaluate_declared`, `getConf_precedence`, `getConf_ascii`, `getConf_terminates`, `getConf_case`, `getConf_section_unread`, `getConf_dbType`, `engine_cached`, `engine_count`, `engine_per_name`, `engine_unsupported`, `engine_new`, `near_window`, `str_spec`, `lexer_error_excerpt`, `parser_str`, `lastKey_iff`, `lastKey_success`, `lastKey_partial`, `lastKey_without_result`, `history_lastKey`, `parse_ids`, `ids_increase`, `parse_num_nodes`, `ast_eq_structural`, `ast_eq_equivalence`, `parse_same_eq`, `parse_error_position`, `parse_ignores_positions`, `parse_whitespace_insensitive`, `evaluate_returns`, `set_literal_eq_undef`, `connective_needs_bool`, `load_latest`, `reset_values`, `check_again`, `typeAt_again`, `check_step`, `text_succeeds_iff`, `text_shows`, `text_determines`, `text_forged`, `text_export`, `type_names`, `text_no_issuer`, `decoded_values`, `float_overflow`, `build_prefix`, `build_other_engine`, `build_same_database`, `log_level_case`, `log_level_iff`, `ladon_level_some`, `ladon_level_swapped`, `logger_setup`, `enabled_services`, `connection_names`, `address_refused`, `address_numbers`, `invalid_credentials`, `credential_type`, `response_stored`, `file_names`, `history_stored`, `info_iff`, `info_fault`, `signed_as_told`, `holder_case`, `password_none`, `init_iff`, `serviceUrl_ok`, `trusted_iff`, `untrusted_listed`, `history_consistent`, `pauth_init_iff`, `pauth_info_iff`, `numberText_inj`, `serial_stored`, `evaluate_outcomes`, `evaluate_uid`, `evaluate_without_policy`, `update_iff`, `call_cli`, `history_cli`, `update_failed`, `sent_size`, `client_init_iff`, `client_without_size`, `pclient_init_iff`, `makeCli_ok`, `makeCli_error`, `pclient_update`, `issued_accepted`, `issued_session`, `client_certified`, `serviceReply_wellFormed`, `populate_rows`, `populate_without_engine`, `populate_engine_fails`, `populate_lost`, `populate_first`, `populate_again`, `populate_stored`, `populate_not_stored`, `same_connection`, `test_is_production`, `populate_elsewhere`, `sectionName_eq`, `genAtts_rows`, `genAtts_again`, `popAndGen_rows`, `popAndGen_assigned`, `tool_iff`, `tool_refused`, `tool_genkey`, `tool_password`, `step_staged`, `opened_staged`, `text_locked`, `interpretable`, `pipeline`, `interpret_shows`, `opened_interpret`, `step_ids`, `ids_fresh`
