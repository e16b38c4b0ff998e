{"id": "C01", "title": "Three-valued connectives are exactly Kleene's strong logic", "statement": "ASTResult's &, | and tri_not implement strong Kleene logic: FALSE < UNDEF < TRUE, AND is minimum, OR is maximum, NOT reverses the order; hence they are commutative, associative, idempotent, distributive and satisfy De Morgan, and both connectives are monotone in the information order (replacing UNDEF by a definite value never flips a definite result).", "quantifier": "all pairs/triples of truth values and every nesting of connectives", "why_tests_cant": "Tests sample formulas; the laws must hold for every nesting depth and every assignment.", "anchors": ["hgpl/ast.py: ASTResult.__and__, __or__, __not__, tri_and, tri_or, tri_not"]}
{"id": "C02", "title": "Only TRUE is truthy", "statement": "A policy result used as a Python condition grants access exactly when it is TRUE: FALSE and UNDEF are both falsy.", "quantifier": "all results evaluate can return", "why_tests_cant": "The guard is used at every node of every tree; it must hold for each.", "anchors": ["hgpl/ast.py: ASTResult.__bool__, truth"]}
{"id": "C03", "title": "Token streams are well bracketed by START and END", "statement": "If Lexer.tokenize returns normally, the token list is START(0), then a list of tokens none of which is START or END, then exactly one END; tokenize terminates on every text, and calling it again changes nothing.", "quantifier": "every policy text of every length", "why_tests_cant": "The set of texts is infinite; termination and idempotence are universal claims.", "anchors": ["hgpl/lexing.py: Lexer.tokenize, next, toke_list"]}
{"id": "C04", "title": "Token positions point at their lexemes", "statement": "Every token's pos is the index in the policy text where its lexeme starts, positions are strictly increasing inside START..END, END's position is not before any of them, and only whitespace lies between consecutive lexemes.", "quantifier": "every policy text that tokenizes", "why_tests_cant": "Positions drive every error message; tests check a handful of texts.", "anchors": ["hgpl/lexing.py: Lexer.next, _number, _string, _id, _whitespace"]}
{"id": "C05", "title": "Whitespace is insignificant between tokens", "statement": "Rendering any sequence of tokens with arbitrary whitespace runs between lexemes (at least one where two lexemes would otherwise fuse) tokenizes to exactly that sequence of token types and values.", "quantifier": "all token sequences and all whitespace paddings", "why_tests_cant": "Infinite combinations of paddings.", "anchors": ["hgpl/lexing.py: Lexer._whitespace, next"]}
{"id": "C06", "title": "Keywords and attribute classes are case-insensitive", "statement": "Any upper/lower-case spelling of AND, OR, NOT, IN, SUBSET, TRUE, FALSE, UNDEF, NULL yields the same token (upper-cased value), and any spelling of the prefixes user, object, env, admin, connect yields the same attribute class; the attribute identifier itself is preserved verbatim.", "quantifier": "all 2^n case variants and all surrounding texts", "why_tests_cant": "Exponentially many spellings.", "anchors": ["hgpl/lexing.py: Lexer.next"]}
{"id": "C07", "title": "Lexer failures are LexerErrors", "statement": "Tokenizing any text either succeeds or raises LexerError.", "quantifier": "every policy text", "why_tests_cant": "Universal over inputs; the unchanged code in fact violates it (a text ending in 'user.' raises AttributeError, a superscript digit raises ValueError).", "anchors": ["hgpl/lexing.py: Lexer.next lines 229-232, _number lines 127-130"]}
{"id": "C08", "title": "att_list lists exactly the attribute tokens", "statement": "After tokenizing, Lexer.att_list() is the subsequence of attribute tokens (user/object/env/admin/connect) of the token list, in order, duplicates included.", "quantifier": "every policy text", "why_tests_cant": "Universal over inputs.", "anchors": ["hgpl/lexing.py: Lexer.att_list, next"]}
{"id": "C09", "title": "The parser accepts exactly the HGPLv2 grammar", "statement": "For every token list beginning with START and ending with its only END, Parser.parse returns an AST if and only if the tokens derive from the grammar implemented (HGPLv2 ABNF without boolean atomics), and then the AST is the one the derivation describes.", "quantifier": "all token lists of all lengths and nesting depths", "why_tests_cant": "The language is infinite; soundness and completeness are universal.", "anchors": ["hgpl/parsing.py: Parser.parse, _policy_rule, _term_rule, _exp_rule, _var_rule, _const_rule, _set_rule, _atomic_rule, _bool_var_rule, _att_name_rule", "hgpl/docs/HGPL_ABNF_V2.txt"]}
{"id": "C10", "title": "The grammar is unambiguous and AND binds tighter than OR", "statement": "Each token list derives at most one AST; chains of AND and of OR associate to the left, AND binds tighter than OR, NOT tighter than AND and parentheses override.", "quantifier": "all token lists", "why_tests_cant": "A counterexample could be arbitrarily deep.", "anchors": ["hgpl/parsing.py: Parser._policy_rule, _term_rule, _exp_rule"]}
{"id": "C11", "title": "Printing then parsing is the identity", "statement": "Every AST the grammar can describe can be written as policy text with parentheses, and lexing and parsing that text gives back the same AST up to token positions.", "quantifier": "all ASTs of all sizes", "why_tests_cant": "Infinite family of trees.", "anchors": ["hgpl/parsing.py: Parser.parse", "hgpl/lexing.py: Lexer.tokenize"]}
{"id": "C12", "title": "Parser failures are ParserErrors", "statement": "For token lists produced by the lexer, parse either returns an AST or raises ParserError.", "quantifier": "every tokenizable text", "why_tests_cant": "Universal over inputs; the unchanged code violates it (the empty policy and 'user.a AND' raise IndexError because _peek's bound is off by one).", "anchors": ["hgpl/parsing.py: Parser._peek, _exp_rule"]}
{"id": "C13", "title": "Parse consumes everything", "statement": "When parse returns, every token has been consumed and no token influences two nodes: the tokens of the AST in source order are exactly the non-punctuation tokens of the input.", "quantifier": "all token lists", "why_tests_cant": "Universal over inputs.", "anchors": ["hgpl/parsing.py: Parser.parse, _eat"]}
{"id": "C14", "title": "Parsed ASTs are well-shaped", "statement": "Every AST returned by parse has the arities and child kinds the interpreter and type checker assume: comparison nodes have two value children, connectives two, NOT one, sets only atomic constants.", "quantifier": "all ASTs produced by parse", "why_tests_cant": "Universal over inputs.", "anchors": ["hgpl/parsing.py", "hgpl/ast.py: ASTNode.left, right, children"]}
{"id": "C15", "title": "Fresh evaluation equals the denotational semantics", "statement": "Evaluating a freshly built AST over a symbol table returns the value of a compositional three-valued semantics of the policy (comparison by operand types, Kleene connectives), or raises exactly when that semantics says so.", "quantifier": "all ASTs the parser can produce and all symbol tables", "why_tests_cant": "Infinite policies and attribute assignments.", "anchors": ["hgpl/interpreting.py: Interpreter.evaluate, _evaluate_node and the _evaluate_* and *_op methods"]}
{"id": "C16", "title": "Evaluation is a function of the mentioned attributes only", "statement": "Two symbol tables that agree on every attribute named in the policy give the same result, warnings and errors on a fresh AST.", "quantifier": "all policies and pairs of tables", "why_tests_cant": "Universal over pairs of states.", "anchors": ["hgpl/interpreting.py: Interpreter.evaluate", "hgpl/symbols.py: SymbolTable.lookup"]}
{"id": "C17", "title": "Re-evaluation does not depend on earlier evaluations", "statement": "Calling evaluate again on the same Interpreter with another symbol table gives the result a fresh Interpreter would give.", "quantifier": "all histories of evaluate calls", "why_tests_cant": "Universal over histories; the unchanged code violates it: truthy child results are cached in the AST, so a TRUE comparison is never re-evaluated.", "anchors": ["hgpl/interpreting.py: Interpreter._evaluate_node line 259-261"]}
{"id": "C18", "title": "A missing, null or ill-typed attribute never grants", "statement": "A comparison mentioning an attribute that is absent, has value None, or a value not matching its declared type evaluates to UNDEF and adds a warning.", "quantifier": "all comparisons, operators, operands and tables", "why_tests_cant": "Universal over operands.", "anchors": ["hgpl/interpreting.py: _evaluate_att_node, _evaluate_op_node", "hgpl/symbols.py: Symbol.check_val_type"]}
{"id": "C19", "title": "Information monotonicity", "statement": "Adding attributes to the symbol table can turn an UNDEF result into TRUE or FALSE but can never turn TRUE into FALSE or UNDEF, nor FALSE into TRUE or UNDEF.", "quantifier": "all policies and all pairs of tables where one extends the other (when both evaluations return)", "why_tests_cant": "Universal over pairs of tables and policies.", "anchors": ["hgpl/interpreting.py", "hgpl/ast.py: ASTResult"]}
{"id": "C20", "title": "!= is the three-valued negation of =, and the orderings are dual", "statement": "For the same operands '!=' evaluates to the negation of '='; '>=' negates '<', '<=' negates '>', '>' is '<' with operands swapped.", "quantifier": "all operand values", "why_tests_cant": "Universal over values.", "anchors": ["hgpl/interpreting.py: _eq_op, _neq_op, _gt_op, _lt_op, _gte_op, _lte_op"]}
{"id": "C21", "title": "SUBSET and IN have set semantics", "statement": "SUBSET decides inclusion of the operand sets (single attribute values counting as singletons) and is reflexive and transitive on sets; IN decides membership, or overlap when the left operand is a set; both ignore order and duplicates.", "quantifier": "all operand sets", "why_tests_cant": "Universal over values.", "anchors": ["hgpl/interpreting.py: _in_op, _subset_op, _symbol_to_val"]}
{"id": "C22", "title": "Policies the parser accepts evaluate without crashing", "statement": "Every policy accepted by lexer, parser and type checker evaluates to TRUE, FALSE or UNDEF.", "quantifier": "all policies and tables", "why_tests_cant": "Universal; the unchanged code violates it: literals 0, 0.0, \"\", FALSE, UNDEF (and a bare TRUE) raise InterpreterError, NULL in set comparisons raises TypeError. The exact set of crashing policies is characterised.", "anchors": ["hgpl/interpreting.py: _evaluate_node line 260, 274; _evaluate_set_node line 252", "hgpl/ast.py: ASTNullVal"]}
{"id": "C23", "title": "Warning threshold", "statement": "evaluate(table, level) raises the first recorded warning iff level is at most WARN and a warning was recorded; with a level above WARN it returns the result; with the default level None it raises TypeError iff any warning was recorded.", "quantifier": "all policies, tables and levels", "why_tests_cant": "Universal over inputs.", "anchors": ["hgpl/interpreting.py: Interpreter.evaluate lines 279-291", "hgpl/errors.py: ErrorType, InterpreterWarning"]}
{"id": "C24", "title": "Evaluation only writes node results", "statement": "evaluate never changes the shape, tokens or ids of the AST nor any symbol.", "quantifier": "all ASTs, tables, histories", "why_tests_cant": "Universal over histories.", "anchors": ["hgpl/interpreting.py"]}
{"id": "C25", "title": "Attribute names are case-insensitive at evaluation", "statement": "Changing the case of an attribute name in the policy or in the symbol table does not change any evaluation result.", "quantifier": "all policies, tables, case variants", "why_tests_cant": "Exponentially many variants.", "anchors": ["hgpl/symbols.py: Symbol, SymbolTable.lookup, att_to_symbol_name"]}
{"id": "C26", "title": "SymbolTable behaves as a map, first definition wins", "statement": "Any sequence of define, set_value, switch_type, lookup calls behaves like a finite map keyed by lower-cased names: define on an existing name returns False and changes nothing, set_value and switch_type change only that name, and both raise on unknown names.", "quantifier": "all operation sequences", "why_tests_cant": "Universal over histories.", "anchors": ["hgpl/symbols.py: SymbolTable"]}
{"id": "C27", "title": "SymbolTableBuilder builds what was loaded", "statement": "build() after load_mixed_att_val_dict files under every lower-cased name the symbol of the first loaded entry that belongs there, with its value (Python bools converted to truth values), its class and the declared type or UNKNOWN; entries not of the form 'class.name' with a known class raise, a bare class name IndexError; names in different classes never collide; for ASCII names without a case variant, lookup_value of the loaded name returns the loaded value.", "quantifier": "all attribute dictionaries", "why_tests_cant": "Universal over dictionaries.", "anchors": ["hgpl/symbols.py: SymbolTableBuilder"]}
{"id": "C28", "title": "Type checker result is consistent with its issues", "statement": "get_result is NONE before check, PASS iff there are no issues, ERROR iff some issue is an error, WARN otherwise; get_errors and get_warnings partition the issues in order; check(level) raises iff some issue has type >= level, and then the first such.", "quantifier": "all ASTs, levels", "why_tests_cant": "Universal over inputs.", "anchors": ["hgpl/semantics.py: TypeChecker.check, get_result, get_errors, get_warnings"]}
{"id": "C29", "title": "Type checking parsed policies never raises an internal Exception", "statement": "check() on any AST parsed from an ASCII policy does not raise the bare Exception()s of the checker.", "quantifier": "all ASCII policies", "why_tests_cant": "Universal; for non-ASCII identifiers it fails (final sigma lower-casing), shown by a witness.", "anchors": ["hgpl/semantics.py: _att_check, _op_node, _scan_tree"]}
{"id": "C30", "title": "The checker's symbol table lists exactly the policy's attributes", "statement": "After check(), get_symbol_table() contains a symbol for each attribute occurring in the policy (lower-cased, by class) and nothing else.", "quantifier": "all ASCII policies (and all others whose attribute names lower-case independently of the class prefix)", "why_tests_cant": "Universal over policies.", "anchors": ["hgpl/semantics.py: _att_node, _scan_tree"]}
{"id": "C31", "title": "Literal-only type errors are exact", "statement": "For comparisons without attributes the checker reports an error exactly when the operand kinds are incompatible with the operator (inequalities on strings, NULL or sets; equality across kinds; IN with a set on the left or an atomic on the right; SUBSET on non-sets). In policies with attributes, errors are exactly the comparisons whose operator rejects the kinds of its operands whatever the attributes are, reported in order at the position of the operator.", "quantifier": "all literal comparisons", "why_tests_cant": "Universal over operand kinds and positions.", "anchors": ["hgpl/semantics.py: _num_check, _eq_check, _in_check, _subset_check"]}
{"id": "C32", "title": "Attribute type inference", "statement": "An attribute's inferred type is that of the first literal with a type it is compared with by =, != (any literal but NULL) or <, >, <=, >= (numbers and, oddly, sets; strings and NULL are errors there and tell nothing); without one it is UNKNOWN. Comparisons of attributes with attributes never tell types. Warnings are recorded exactly for comparisons by these operators that are not errors and in which an attribute of a type known from earlier comparisons meets a literal of another type (NULL counts as another type, INT and FLOAT are compatible), or two attributes have different types, UNKNOWN included.", "quantifier": "all ASCII policies (and all others whose attribute names lower-case independently of the class prefix)", "why_tests_cant": "Universal; the unchanged code never propagates types between attributes (contradictory guards), shown as a theorem.", "anchors": ["hgpl/semantics.py: _att_check"]}
{"id": "C33", "title": "AST encode/decode round trip", "statement": "ASTEncoder.decode(ASTEncoder.encode(ast)) is equal to ast (and in base64 mode too) for every AST whose ids are distinct 16-bit numbers, whose positions, sizes and counts fit 16 bits, ints fit 32 bits, floats are binary32, and strings are non-empty ASCII.", "quantifier": "all ASTs of all shapes", "why_tests_cant": "Infinite family of trees.", "anchors": ["hgpl/ast.py: ASTEncoder.encode, decode, _encode_node"]}
{"id": "C34", "title": "AST encode/decode round trip of parsed policies", "statement": "The AST the parser returns for a policy text shorter than 2^16, with node ids below 2^16, comes back unchanged (classes, tokens, ids, results, structure) from encode followed by decode if and only if its int literals have 32 bits, its float literals are binary32 numbers, no string literal is empty and all attribute names are ASCII. Otherwise something is lost: the empty string becomes None, 0.1 is rounded, big ints and ids raise struct.error, non-ASCII names are cut off.", "quantifier": "all policy texts", "why_tests_cant": "Equivalence over an infinite family of texts; the if-direction alone is universal.", "anchors": ["hgpl/ast.py: ASTEncoder"]}
{"id": "C35", "title": "AST decoding never yields dangling children", "statement": "Any byte string that decodes successfully gives a node graph in which every child and the root were defined in the same byte string; the decoder always terminates, ignores trailing bytes and ignores the version.", "quantifier": "all byte strings", "why_tests_cant": "Universal over inputs.", "anchors": ["hgpl/ast.py: ASTEncoder.decode"]}
{"id": "C36", "title": "Attribute certificate codec round trip", "statement": "For every certificate whose strings are ASCII and whose fields fit their wire sizes, decode(encode(ac)) returns a certificate with the same content (empty optional fields normalised to None) and consumes all bytes.", "quantifier": "all certificates with any number of attributes and extensions", "why_tests_cant": "Infinite family.", "anchors": ["hgaa/attcert.py: AttributeCertificate.encode, decode, _encode_body, _decode_body and all AC* parts"]}
{"id": "C37", "title": "Certificate parts are self-delimiting", "statement": "Decoding any part from its encoding followed by arbitrary bytes returns the part and leaves exactly those bytes.", "quantifier": "all parts and all suffixes", "why_tests_cant": "Universal over suffixes.", "anchors": ["hgaa/attcert.py: ACInformation, ACIssuer, ACHolder, ACAttribute, ACRevocationRules, ACDelegationRules, ACExtensions, ACSignature"]}
{"id": "C38", "title": "Signatures bind every field", "statement": "If two certificates with ASCII strings have the same signed bytes, they agree on every field of every part (issuer, holder, info, attributes in order, revocation, delegation, extensions), so a signature over one is a signature over the other only if they are the same certificate.", "quantifier": "all pairs of certificates", "why_tests_cant": "Universal over pairs.", "anchors": ["hgaa/attcert.py: _encode_body, sign, verify_signature"]}
{"id": "C39", "title": "Sign then verify", "statement": "A certificate signed with the private key matching its issuer public key verifies, also after export and import; changing the body, the signature or the issuer key so that the signature scheme rejects makes verification fail; unsigned certificates never verify.", "quantifier": "all certificates and all correct signature schemes", "why_tests_cant": "Universal over certificates and keys.", "anchors": ["hgaa/attcert.py: sign, verify_signature, encode, decode, export_ac, import_ac"]}
{"id": "C40", "title": "Malformed certificates are rejected", "statement": "decode accepts exactly the byte strings of the certificate format. Bytes after the signature are rejected; a strict prefix of an encoded certificate is rejected unless only signature bytes are missing; verify=True never returns a certificate whose signature does not verify, in any format. Every accepted certificate with a serial number below 256^254 is also accepted in different bytes.", "quantifier": "all byte strings", "why_tests_cant": "Universal over inputs; truncation inside the signature value is silently accepted without verify, shown by a theorem.", "anchors": ["hgaa/attcert.py: AttributeCertificate.decode, ACSignature.decode"]}
{"id": "C41", "title": "Non-ASCII strings in certificates are cut", "statement": "A certificate's content comes back from decode(encode(ac)) exactly if all its strings are ASCII: a string is written as the first bytes of its UTF-8 form, as many as it has characters. Other strings are shortened or make the certificate unreadable, and certificates of different holders can have the same signed bytes, so that a signature of one verifies for the other.", "quantifier": "all strings", "why_tests_cant": "The naive claim (strings survive whatever their characters) is violated; the exact condition is universal over certificates and signature schemes.", "anchors": ["hgaa/attcert.py: ACIssuer.encode, ACHolder.encode, ACAttribute.encode"]}
{"id": "C42", "title": "Validity window", "statement": "verify_time(now) holds exactly when valid_after < now < valid_before.", "quantifier": "all windows and times", "why_tests_cant": "Boundary behaviour for every window.", "anchors": ["hgaa/attcert.py: verify_time"]}
{"id": "C43", "title": "Certificate equality", "statement": "For certificates whose attribute ids and extension ids are distinct, AttributeCertificate.__eq__ is reflexive, symmetric, transitive and insensitive to the order of attributes and extensions; it does not compare the names of issuer and holder. With repeated ids a certificate can differ from itself and the order of comparison matters. It raises exactly if one list is None and the other is not and the parts compared before agree, so comparing a certificate without attributes with its decoded form raises.", "quantifier": "all certificates", "why_tests_cant": "Universal over pairs and triples of certificates; equality as an equivalence is violated for repeated ids, shown by witnesses.", "anchors": ["hgaa/attcert.py: AttributeCertificate.__eq__, ACIssuer.__eq__, ACHolder.__eq__"]}
{"id": "C44", "title": "Export formats agree", "statement": "BASE64 and BASE64FULL exports import to the same certificate as BYTES; XML always raises, TEXT import always raises; importing BYTES empties the caller's bytearray, importing BASE64 does not.", "quantifier": "all certificates", "why_tests_cant": "Universal over certificates.", "anchors": ["hgaa/attcert.py: export_ac, import_ac"]}
{"id": "C45", "title": "Attributes are only certified for the authenticated user", "statement": "attribute_request returns a certificate only if the user exists and the password check passes for that user, and every user attribute in it is assigned to that user with that value.", "quantifier": "all databases, credentials and requests", "why_tests_cant": "Universal over states and requests.", "anchors": ["hgaa/services/aauth.py: attribute_request, _make_ac"]}
{"id": "C46", "title": "Attribute selection", "statement": "With no id or name requested (after dropping None, '*' and '') all assigned attributes are certified; otherwise exactly the requested ones; a request for an unassigned id or name raises ClientFault and certifies nothing.", "quantifier": "all assignments and request lists", "why_tests_cant": "Universal over lists.", "anchors": ["hgaa/services/aauth.py: attribute_request lines 459-505"]}
{"id": "C47", "title": "Issued certificates are well formed and valid", "statement": "Every issued certificate carries the authority's issuer part, holder uid a_uri/user/username, validity issued..issued+AC_EXPIRE_LENGTH, decodes back and verifies under the authority's key.", "quantifier": "all requests with ASCII fields", "why_tests_cant": "Universal over requests.", "anchors": ["hgaa/services/aauth.py: _make_ac, _make_con_att_set"]}
{"id": "C48", "title": "Issued certificates have unique attribute ids", "statement": "No two attributes of an issued certificate share an id.", "quantifier": "all requests", "why_tests_cant": "Universal; violated: weekday name and number share an id, so an issued certificate is not even equal to itself.", "anchors": ["hgaa/services/aauth.py: _make_con_att_set lines 263-282"]}
{"id": "C49", "title": "Sessions never outlive their certificates", "statement": "A session returned by start_session ends no later than every presented certificate's valid_before and no later than one day after its start, and every presented certificate was in its validity window at the check.", "quantifier": "all certificate sets, databases and clocks", "why_tests_cant": "Universal over sets and times.", "anchors": ["hgaa/services/pauth.py: start_session"]}
{"id": "C50", "title": "Sessions are only granted on certificates that pass every check", "statement": "start_session succeeds only if every presented certificate has the supported version and format, imports with a valid signature, names an authority in the database with positive trust, and is unexpired; otherwise it raises ClientFault.", "quantifier": "all certificate sets and databases", "why_tests_cant": "Universal over sets.", "anchors": ["hgaa/services/pauth.py: _check_cert, start_session"]}
{"id": "C51", "title": "Accepted certificates were signed by the trusted authority", "statement": "A certificate accepted by start_session carries a signature made by the authority in the database.", "quantifier": "all certificates", "why_tests_cant": "Universal; violated: the signature is checked against the key inside the certificate and the database key is never compared, so anyone can forge certificates for a trusted uid; proved with an attacker construction for every signature scheme.", "anchors": ["hgaa/services/pauth.py: _check_cert lines 185-199"]}
{"id": "C52", "title": "start_session is atomic", "statement": "If start_session raises, the database is unchanged; if it returns, exactly the new session, the certificates not stored before and one assignment per presented certificate were added.", "quantifier": "all databases, requests, fault points", "why_tests_cant": "Universal over fault points.", "anchors": ["hgaa/services/pauth.py: start_session"]}
{"id": "C53", "title": "Serial reuse is detected", "statement": "A certificate whose serial is stored with different content is refused.", "quantifier": "all histories of start_session calls", "why_tests_cant": "Universal; violated for BYTES format: decoding consumes the buffer before it is hashed, so all BYTES certificates hash alike; proved for BASE64.", "anchors": ["hgaa/services/pauth.py: start_session lines 245-275"]}
{"id": "C54", "title": "PolicyAuthority.evaluate never grants", "statement": "evaluate never returns an EvaluationResult.", "quantifier": "all requests and databases", "why_tests_cant": "Universal over requests.", "anchors": ["hgaa/services/pauth.py: evaluate"]}
{"id": "C55", "title": "Configuration lookup precedence", "statement": "get_conf returns the section's value if set, else the DEFAULT section's, else the built-in default, else None; section and key names are case-insensitive and it always terminates.", "quantifier": "all configurations, keys and sections", "why_tests_cant": "Universal over configurations.", "anchors": ["hgaa/config.py: get_conf"]}
{"id": "C56", "title": "Engines are cached per service name", "statement": "get_engine returns the same engine for the same name in every history of calls, creates at most one engine per name, and never caches an unsupported type.", "quantifier": "all call histories", "why_tests_cant": "Universal over histories.", "anchors": ["hgaa/database.py: get_engine, get_session"]}
{"id": "C57", "title": "Error excerpts", "statement": "HGPLError.near(n) is the part of the policy within n characters of pos, always a contiguous substring containing the character at pos when pos is inside the text.", "quantifier": "all texts, positions and widths", "why_tests_cant": "Boundary behaviour for every position.", "anchors": ["hgpl/errors.py: HGPLError.near"]}
{"id": "C58", "title": "Client keys", "statement": "AttributeAuthorityClient.last_key changes only when a request succeeds, and is then the key whose public part was sent.", "quantifier": "all request histories and responses", "why_tests_cant": "Universal over histories.", "anchors": ["hgaa/clients/aauth.py: attribute_request"]}
{"id": "C59", "title": "Node ids are unique", "statement": "All AST nodes created in a process have distinct, increasing ids.", "quantifier": "all histories of node creation", "why_tests_cant": "Universal over histories.", "anchors": ["hgpl/ast.py: ASTNode.__init__"]}
{"id": "C60", "title": "AST equality is structural", "statement": "ASTNode.__eq__ holds exactly when token and children agree recursively, ignoring ids, results and node classes; it is an equivalence.", "quantifier": "all pairs of ASTs", "why_tests_cant": "Infinite family of trees.", "anchors": ["hgpl/ast.py: ASTNode.__eq__", "hgpl/lexing.py: Token.__eq__"]}
{"id": "C61", "title": "Lexer errors point into the text", "statement": "Whenever tokenizing fails with a LexerError, the reported position is the index of a character of the policy text or the text's length, so an error report can always show the place.", "quantifier": "every policy text that fails to tokenize", "why_tests_cant": "There are unboundedly many failing texts and several error paths.", "anchors": ["hgpl/lexing.py: Lexer.tokenize, next, _number, _string, _id", "hgpl/errors.py: HGPLError"]}
{"id": "C62", "title": "ParserErrors point at the first wrong token", "statement": "When parse raises ParserError, the reported position is that of a token of the input, and the tokens before it are a correct beginning: some continuation makes them a policy.", "quantifier": "every tokenizable text that parse rejects with ParserError", "why_tests_cant": "Universal over inputs and existential over continuations.", "anchors": ["hgpl/parsing.py: Parser._eat, _exp_rule", "hgpl/errors.py: ParserError"]}
{"id": "C63", "title": "A parser object parses once", "statement": "After a successful parse the token list of the parser is used up and a second call of parse raises AttributeError instead of returning a tree.", "quantifier": "every tokenizable text parse accepts", "why_tests_cant": "Universal over inputs.", "anchors": ["hgpl/parsing.py: Parser.parse, _eat"]}
{"id": "C64", "title": "White space does not change the AST", "statement": "The AST depends only on types and values of the tokens: two texts whose tokens agree up to positions are both accepted with ASTs equal up to positions, or both rejected.", "quantifier": "all pairs of texts", "why_tests_cant": "Infinite family of respacings.", "anchors": ["hgpl/parsing.py", "hgpl/lexing.py: Lexer._whitespace, next", "hgpl/docs/HGPL_ABNF_V2.txt: Notes"]}
{"id": "C65", "title": "What evaluate can return", "statement": "When evaluate returns, the result is TRUE, FALSE or UNDEF, except for a policy that is one bare attribute of a type other than BOOL with a fitting value, for which the Symbol object itself is returned.", "quantifier": "all policies, symbol tables and warning levels", "why_tests_cant": "Universal over policies and tables; the exceptional case is one grammar production.", "anchors": ["hgpl/interpreting.py: Interpreter.evaluate line 291, _evaluate_att_node line 61"]}
{"id": "C66", "title": "Attribute compared with a set literal by = or != is UNDEF", "statement": "Comparing an attribute with a fitting value (single value or collection) with a set literal by = or != in either order evaluates to UNDEF and records one eq_op warning, whatever the elements.", "quantifier": "all attributes, values and set literals", "why_tests_cant": "Universal over values and literals; the mix of list (literal) and set (symbol) is easy to miss in examples.", "anchors": ["hgpl/interpreting.py: _symbol_to_val lines 89-100, _eq_op lines 102-120"]}
{"id": "C67", "title": "Connectives need truth values", "statement": "NOT, AND and OR with an operand that is an attribute of a type other than BOOL with a fitting value raise InterpreterError at the position of the connective.", "quantifier": "all policies with such an operand", "why_tests_cant": "Universal over the other operand and the attribute value.", "anchors": ["hgpl/interpreting.py: _evaluate_not_node lines 67-72, _evaluate_bool_op_node lines 74-87"]}
{"id": "C68", "title": "Loading again replaces, reset_values forgets", "statement": "After load_mixed_att_val_dict an attribute has the value of the last loaded entry of its name, whether in this or an earlier dictionary; after reset_values the builder behaves like a new one with the same declared types.", "quantifier": "all builder states and dictionaries with well-formed names", "why_tests_cant": "Universal over histories of loads.", "anchors": ["hgpl/symbols.py: SymbolTableBuilder.load_mixed_att_val_dict, reset_values"]}
{"id": "C69", "title": "Checking again accumulates", "statement": "Calling check n times on the same TypeChecker records the issues of checking the comparisons of the policy n times over, the types inferred by earlier calls included; so a second call can record warnings the first did not, and issues are never dropped.", "quantifier": "all policies with stable attribute names, all numbers of calls and levels", "why_tests_cant": "Universal over call histories.", "anchors": ["hgpl/semantics.py: TypeChecker.check, _scan_tree"]}
{"id": "C70", "title": "TEXT export shows the certificate", "statement": "The TEXT export raises exactly if the issuer has no key or the signature no value. For certificates with complete issuer and signature whose strings have no line breaks, its lines are exactly the labelled fields in order, and two certificates with the same text agree in every field (missing and empty lists or delegation rules not being distinguished). With line breaks in values, one attribute can look like two.", "quantifier": "all certificates and pairs of certificates", "why_tests_cant": "Injectivity is universal over pairs of certificates.", "anchors": ["hgaa/attcert.py: AttributeCertificate.__str__, export_ac and the __str__ of all parts"]}
{"id": "C71", "title": "Certificate constructors", "statement": "With default revocation rules a certificate is valid exactly strictly between the time of construction and one day later; given times are kept. An ACAttribute never stores an empty value or name. ACInformation keeps a given serial and issue time and otherwise uses the random number and the clock.", "quantifier": "all arguments and clock values", "why_tests_cant": "Universal over times and values.", "anchors": ["hgaa/attcert.py: ACInformation.__init__, ACAttribute.__init__, ACRevocationRules.__init__"]}
{"id": "C72", "title": "What a decoded AST keeps", "statement": "Whenever ASTEncoder.encode succeeds on an AST with distinct ids and decode succeeds on the bytes, every node comes back with its class, token type, position and children; INT values are unchanged, finite FLOAT values are rounded to a nearest binary32 number (the one with last bit 0 if two are as near), infinities are kept, and a text comes back as the text whose UTF-8 form is the first n bytes of the old one, n being its number of characters (None if empty). A finite float can be encoded exactly if its size is below (2^25 - 1) * 2^103.", "quantifier": "all ASTs with distinct ids, all floats", "why_tests_cant": "Universal over trees and over all binary64 numbers, including ties and the overflow threshold.", "anchors": ["hgpl/ast.py: ASTEncoder.encode, decode, _encode_node"]}
{"id": "C73", "title": "build_database builds through engines the services do not use", "statement": "build_database creates the tables of the listed services in order until the first it cannot serve (unknown name, no engine, or an error); it raises exactly if there is such a service and keeps what was built before. It only accepts lower-case names while the services open their databases as 'AAUTH', so in every history the tables are created through an engine no service uses; both engines have the same connection string, so that only memory databases differ.", "quantifier": "all configurations, drivers and engine caches", "why_tests_cant": "Universal over configurations and call histories.", "anchors": ["hgaa/tools.py: build_database", "hgaa/database.py: get_engine, get_session"]}
{"id": "C74", "title": "Logger set-up", "statement": "str_to_log_level gives the eight documented names, in any case, their level and every other text NOTSET; handler.py sets Ladon's level for every result, but WARN gives a higher one than INFO. When make_logger succeeds the logger has the configured name, level, stream handler and the file LOG_DIR + LOG_FILE, emptied exactly if CLEAN_LOG_ON_START is true; 'none' and 'false' mean no file and an empty name is opened as it is.", "quantifier": "all configurations and level names", "why_tests_cant": "Universal over configurations.", "anchors": ["hgaa/log.py: str_to_log_level, make_logger", "hgaa/handler.py lines 17-29"]}
{"id": "C75", "title": "Enabled services", "statement": "The application consists of exactly the services of the list for which SERVICE_ENABLED is 'true' in any case, in the order of the list.", "quantifier": "all configurations", "why_tests_cant": "Universal over configurations.", "anchors": ["hgaa/handler.py lines 39-48"]}
{"id": "C76", "title": "Connection attributes", "statement": "Every issued certificate contains, after the user's attributes and in a fixed order, exactly the documented connection attributes: the REMOTE_* variables present, ip_v4/ip_v6 and the numbers of the address, the client's key, the fields of the clock, the authority's data and the serial number; each with its type, id and value.", "quantifier": "all requests, environments and clocks", "why_tests_cant": "Universal over addresses, clocks and configurations.", "anchors": ["hgaa/services/aauth.py: _make_con_att_set, _make_ac"]}
{"id": "C77", "title": "Addresses that get certificates", "statement": "Dotted addresses of decimal numbers and full hexadecimal version 6 addresses are understood; a client with a shortened version 6 address (::) or a version 4 address mapped to version 6 never gets a certificate: the request raises ValueError.", "quantifier": "all addresses, requests and databases", "why_tests_cant": "Universal over addresses; tests use 127.0.0.1.", "anchors": ["hgaa/services/aauth.py: _make_con_att_set lines 199-234"]}
{"id": "C78", "title": "Responses, stored certificates and faults", "statement": "Unknown names and wrong passwords are answered with the same ClientFault and other credential types with another; a failing request leaves all files unchanged; a successful one writes exactly one file named after the serial number, with the content of the response. Different serial numbers give different files, so in every history certificates with distinct serial numbers are all kept.", "quantifier": "all histories of requests", "why_tests_cant": "Universal over histories.", "anchors": ["hgaa/services/aauth.py: attribute_request, _make_ac"]}
{"id": "C79", "title": "info", "statement": "info returns the configured id, URI, revocation URL and the public key certificates are signed with exactly if id and URI are configured, and a ServerFault naming the missing one otherwise.", "quantifier": "all configurations", "why_tests_cant": "Universal over configurations.", "anchors": ["hgaa/services/aauth.py: info, _get_info_attr"]}
{"id": "C80", "title": "Holder names are not normalised", "statement": "Names differing only in case belong to the same user, but their certificates name different holders.", "quantifier": "all users and names", "why_tests_cant": "Universal over names.", "anchors": ["hgaa/services/aauth.py: attribute_request line 435, _make_ac"]}
{"id": "C81", "title": "A missing password is the password 'None'", "statement": "A request without a password is treated exactly like one with the password 'None'.", "quantifier": "all requests and databases", "why_tests_cant": "Universal over requests.", "anchors": ["hgaa/services/aauth.py: attribute_request lines 438-446"]}
{"id": "C82", "title": "Start of the authority", "statement": "The authority starts exactly if a host and a port are configured, AC_EXPIRE_LENGTH is a number and the key can be read; its fields are the configured values, and the revocation URL comes from REV_URI or a default, never from REV_URL.", "quantifier": "all configurations", "why_tests_cant": "Universal over configurations.", "anchors": ["hgaa/services/aauth.py: __init__"]}
{"id": "C83", "title": "The list of trusted authorities is the whole table", "statement": "trusted_attribute_authorities lists every stored authority, also those with a trust level of 0 or less, from whom start_session accepts nothing.", "quantifier": "all databases", "why_tests_cant": "Universal over databases.", "anchors": ["hgaa/services/pauth.py: trusted_attribute_authorities, _check_cert"]}
{"id": "C84", "title": "The tables stay consistent over any history of start_session calls", "statement": "Primary keys, hashes, the links between assignments, certificates and sessions, and the bounds of sessions hold after any sequence of granted and refused requests; rows are only added.", "quantifier": "all request sequences", "why_tests_cant": "Induction over histories.", "anchors": ["hgaa/services/pauth.py: start_session"]}
{"id": "C85", "title": "Start and info of the policy authority", "statement": "The policy authority starts exactly if a host and a port are configured; info reports the configured name and uid, the URL and version 1 of everything.", "quantifier": "all configurations", "why_tests_cant": "Universal over configurations.", "anchors": ["hgaa/services/pauth.py: __init__, info"]}
{"id": "C86", "title": "Texts of serial numbers and session ids identify them", "statement": "Different numbers of 160 bits have different base64 texts, but in a database that ignores case different numbers can clash.", "quantifier": "all 160 bit numbers", "why_tests_cant": "2^160 numbers.", "anchors": ["hgaa/services/pauth.py: _int_to_b64"]}
{"id": "C87", "title": "Order of the checks in evaluate", "statement": "With a policy text, evaluate refuses an invalid policy, then attributes without name and uid, then an unknown session, each with its ClientFault; otherwise it ends in AttributeError. A policy uid never gives a policy.", "quantifier": "all arguments and databases", "why_tests_cant": "Universal over requests.", "anchors": ["hgaa/services/pauth.py: evaluate"]}
{"id": "C88", "title": "update_service moves later requests only if it succeeds", "statement": "A client sends every request to the endpoint of the last update_service that succeeded, or of its construction; a failed update leaves the endpoint used as it was, although service_desc already names the new one.", "quantifier": "all histories of client calls", "why_tests_cant": "Induction over call histories with arbitrary replies.", "anchors": ["hgaa/clients/aauth.py: update_service"]}
{"id": "C89", "title": "The size told to the authority is that of the key sent", "statement": "attribute_request announces the size of the key passed by the caller, or the configured size for a generated key, together with the public part of the same key.", "quantifier": "all keys, settings and replies", "why_tests_cant": "Universal over keys and sizes.", "anchors": ["hgaa/clients/aauth.py: attribute_request"]}
{"id": "C90", "title": "When clients can be made", "statement": "A client is made exactly if the configured client type is JSONWSP, connecting to the configured description succeeds and, for the attribute client, KEY_SIZE is the text of an integer; without KEY_SIZE, which has no default, no attribute client is made.", "quantifier": "all configurations", "why_tests_cant": "Universal over configurations and connection outcomes.", "anchors": ["hgaa/clients/aauth.py: __init__", "hgaa/clients/pauth.py: __init__"]}
{"id": "C91", "title": "Answers of the other client methods", "statement": "info and trusted_attribute_authorities of the clients return the result field of an answer with status 200, raise an Exception for any other status, and turn a fault into a KeyError; start_session of the policy client returns the answer itself without looking at it.", "quantifier": "all answers", "why_tests_cant": "Universal over answers.", "anchors": ["hgaa/clients/aauth.py: info", "hgaa/clients/pauth.py: info, start_session"]}
{"id": "C92", "title": "Issued certificates start sessions", "statement": "A certificate issued by an attribute authority whose texts are ASCII is accepted, as bytes or base64, by every policy authority that trusts its uri, at every time after it was issued and before it expires, and starts a session which ends with the certificate or after a day, whichever is first.", "quantifier": "all authorities, databases, users, requests and clocks", "why_tests_cant": "Composition of two services over all inputs.", "anchors": ["hgaa/services/aauth.py: attribute_request", "hgaa/services/pauth.py: start_session, _check_cert"]}
{"id": "C93", "title": "The key a client keeps is the key that was certified", "statement": "After attribute_request returns a certificate of an authority whose texts are ASCII, the certificate decodes and verifies, names the public part of last_key with its real size, and was issued to the client's user with the right password; if no certificate is returned, last_key is unchanged.", "quantifier": "all clients, authorities, databases and requests", "why_tests_cant": "Composition of client and service over all inputs.", "anchors": ["hgaa/clients/aauth.py: attribute_request", "hgaa/services/aauth.py: attribute_request"]}
{"id": "C94", "title": "Filling a database changes one service's rows only", "statement": "populate_db leaves all other databases and, in its own, the rows of other services as they are. Without a fault of the database it stores exactly the new rows, after the old rows or, with wipe_first, instead of the rows of the service; a primary key in use raises IntegrityError and adds nothing, an unknown service with wipe_first raises Exception and changes nothing. As the wipe is committed before the new rows are added, a failure afterwards loses the old rows.", "quantifier": "all schemas, databases, configurations, rows and faults", "why_tests_cant": "Universal over schemas and contents of databases.", "anchors": ["hgaa/database.py: populate_db"]}
{"id": "C95", "title": "Filling a database twice with the same objects empties it", "statement": "The first populate_db with new objects stores their rows. After it succeeded, a second call with the same objects and wipe_first succeeds too and leaves the tables of the service empty, since stored objects are not inserted again.", "quantifier": "all schemas, databases, configurations and lists of objects", "why_tests_cant": "Universal over schemas and object lists.", "anchors": ["hgaa/database.py: populate_db", "hgaa/tools.py: populate"]}
{"id": "C96", "title": "Names with the same settings lead to the same database", "statement": "Two section names with the same database options give engines with the same connection string. So, if neither the section of a service nor its _TEST section sets one, use_test_db fills and wipes the production database; and rows stored through an engine for another place are not seen by a service.", "quantifier": "all configurations and engine caches", "why_tests_cant": "Universal over configurations.", "anchors": ["hgaa/database.py: populate_db, get_engine", "hgaa/config.py: get_conf"]}
{"id": "C97", "title": "Generated attributes are exactly those assigned", "statement": "gen_atts(n) adds n integer attributes and assigns each to the first user with its number as value, or raises IntegrityError and changes nothing if one of them exists, in particular the second time. pop_and_gen(n) leaves exactly the demo user, these attributes and assignments, primary keys are unique, and the authority reads exactly these attributes for that user.", "quantifier": "all numbers, databases and configurations", "why_tests_cant": "Universal over n and contents of the database.", "anchors": ["hgaa/tools.py: gen_atts, pop_and_gen"]}
{"id": "C98", "title": "The command line", "statement": "The exact command lines tools.py accepts, what each does, and the exceptions of all others; unknown commands do nothing without an error. `genkey aauth` uses the file and passphrase the attribute authority reads, and `password aauth` hashes what the authority compares with the stored hash.", "quantifier": "all argument lists and configurations", "why_tests_cant": "Universal over argument lists and configurations.", "anchors": ["hgaa/tools.py: __main__"]}
{"id": "C99", "title": "The policy demo shows the meaning of the policy for the current attributes", "statement": "In every history of user actions exactly one of Tokenize, Parse, Type Check and Interpret is enabled, the tokens and tree shown are those of the policy in the combo box, and the policy cannot be changed between Tokenize and Reset. Clicking through the stages enables Interpret exactly for policies without comparisons that clash. Interpret shows the meaning of the policy for the attributes as they are now, however often they were edited and the policy was interpreted before, and changes nothing else; for a policy that is a single attribute of a type other than BOOL it shows the name of the attribute.", "quantifier": "all histories of user actions, policies and attribute tables", "why_tests_cant": "Universal over histories of actions, policies and attributes.", "anchors": ["hgpl/gui/demos.py: LexerDemoFrame"]}
{"id": "C100", "title": "Editing an attribute in the policy demo", "statement": "A text that is a value of the attribute's type becomes the value of this attribute and of no other; other texts change nothing. Sets become sets of texts whatever they held before, so submitting a set of integers as shown changes it. Classes, names and types of attributes never change, and only hashable values get into sets. An attribute of no class cannot be edited: a value raises Exception and changes nothing.", "quantifier": "all attribute tables, texts and histories of actions", "why_tests_cant": "Universal over tables and texts.", "anchors": ["hgpl/gui/demos.py: _update_att"]}
{"id": "C101", "title": "The attribute authority demo sends what the window shows to the service it shows", "statement": "Every attribute request carries the user, password, names, ids and key in the window when the button is pressed. In every history in which services can be reached it goes to the address in the window. After an address that cannot be reached, pressing the button again sends user and password to the service used before.", "quantifier": "all clients, histories of user actions, answers and faults", "why_tests_cant": "Universal over histories of user actions and behaviour of services.", "anchors": ["hgaa/clients/demos/aauth.py: _command_ac, _command_info"]}
{"id": "C102", "title": "Lists and keys of the attribute authority demo", "statement": "The lists of names and ids never hold blank lines or a line twice. A certificate that is shown was received in answer to the last request, and the key shown is the one whose public part was sent in that request. Attachments that cannot be read are asked for again until one can; other failures end the command and leave everything but the client as it was.", "quantifier": "all histories of user actions and sequences of answers", "why_tests_cant": "Universal over histories and over the number of attempts.", "anchors": ["hgaa/clients/demos/aauth.py: _command_add_name, _command_add_id, _command_ac"]}
{"id": "C103", "title": "The label 'Verified' belongs to the certificate shown", "statement": "The label says whether the signature of the certificate shown verifies, and the bytes shown are those of this certificate.", "quantifier": "all histories of user actions and answers", "why_tests_cant": "Universal over histories and certificates.", "anchors": ["hgaa/clients/demos/aauth.py: _command_verify, _command_ac, _command_clear_ac"]}
{"id": "C104", "title": "Concurrent calls of start_session are serializable", "statement": "Whatever the order in which the steps of calls of start_session made at the same time happen, and whatever earlier committed state each query sees, the database and the answers of the granted calls are those of the granted calls made one after another; the tables stay consistent, rows are only added, refused calls leave nothing, and every call ends after a bounded number of its own steps.", "quantifier": "all databases, sets of concurrent calls, interleavings, isolation levels and fault points", "why_tests_cant": "Interleavings and isolation levels cannot be enumerated by tests.", "anchors": ["hgaa/services/pauth.py: start_session", "hgaa/handler.py: application"]}
{"id": "C105", "title": "Concurrency only spoils calls that store the same new certificate", "statement": "A call of start_session that ends among others ends as it would alone in the state of that moment: if granted, with the same answer and rows; if refused, it would also be refused alone, except when another call has stored one of its new certificates since it looked: then it raises IntegrityError and stores nothing, although alone it would be granted.", "quantifier": "all databases, sets of concurrent calls and interleavings", "why_tests_cant": "Universal over interleavings.", "anchors": ["hgaa/services/pauth.py: start_session"]}
{"id": "C106", "title": "Values of configuration files", "statement": "get_conf returns the value that takes precedence in the files with every %(name)s replaced by the value of that option in the same section, through at most ten levels, and every %% by %. It raises exactly if that value holds another %, refers to an option that is missing or refers to itself; every text can be written as a value by doubling its %. If all values can be expanded, get_conf on the files is the lookup of C55. Sections whose names are not in upper case have no effect.", "quantifier": "all files, values, names, sections and nestings of references", "why_tests_cant": "Universal over texts and reference graphs.", "anchors": ["hgaa/config.py: get_conf", "hgaa/config.py: SERVICE_CONFIG, CLIENT_CONFIG"]}
{"id": "C107", "title": "Reading configuration files", "statement": "A file is read as the sections, options and values it lists, whatever spaces, comments, blank lines and continuation lines it has; a missing file counts as empty; repeated sections, repeated options, options before the first section and lines that are nothing of this are refused. Whatever is read, DEFAULT is only the default section and nothing is there twice.", "quantifier": "all files", "why_tests_cant": "Universal over texts of files.", "anchors": ["hgaa/config.py:42-53"]}
{"id": "C108", "title": "The shipped configuration works", "statement": "With the shipped files both services are enabled and start (the attribute authority if its key can be read) at port 8888 of localhost, certificates last an hour, both use one MySQL database, and each client connects to the description of the service it is for.", "quantifier": "all lawful character tables, key files, connections and states of the database module", "why_tests_cant": "The statement is for every environment.", "anchors": ["hgaa/confs/services.ini", "hgaa/confs/clients.ini", "hgaa/services/aauth.py: __init__", "hgaa/services/pauth.py: __init__", "hgaa/clients/aauth.py: __init__", "hgaa/clients/pauth.py: __init__"]}
{"id": "C109", "title": "A lexer only reads forward, and raises for good", "statement": "Whatever calls of next were made before and whatever they raised: policy() is the text the lexer was made for; toke_list() begins with START and only grows, by exactly the token next returns, which is then current(); att_list() grows by exactly the attribute tokens; token_string() is the names of the token types separated by single spaces; after END next returns None and nothing changes. The token of a LexerError starts at the first character after white space. A lexer that has raised keeps raising, so a Parser made from it raises too.", "quantifier": "all lawful character tables, texts and sequences of calls", "why_tests_cant": "A test looks at a few calls on a few texts; the statement is about every sequence of calls, including those after an exception.", "anchors": ["hgpl/lexing.py: Lexer", "hgpl/parsing.py: Parser.__init__"]}
{"id": "C110", "title": "What importing the logging module does to log files", "statement": "Importing hgaa/log.py succeeds exactly if the formats of the loggers of services, clients, SQLAlchemy and Ladon are accepted and their files can be opened; it opens exactly these files, in this order. Whatever happens, other files stay as they are, files opened for appending keep what is in them, and of files that are emptied nothing is left. A client that imports the module therefore empties the logs of the services, of SQLAlchemy and of Ladon if CLEAN_LOG_ON_START of the services is true.", "quantifier": "all lawful character tables, configurations, directories, file systems, formatters and states of the process", "why_tests_cant": "The effect depends on the configuration, on what is on the disk and on which files can be opened; a test sees one combination.", "anchors": ["hgaa/log.py"]}
{"id": "C111", "title": "Which handlers get a record", "statement": "After the import, a record of a logger made by make_logger for a section goes to the handlers added for this section, then to those of section DEFAULT, then to those of the root logger, in this order and to no others; it is dropped exactly if its level is below the first level set among these loggers. Later calls of make_logger and later records do not change this.", "quantifier": "all configurations with log names without dots, all fresh processes, all loggers and records", "why_tests_cant": "The way of a record depends on which loggers exist and on all their levels.", "anchors": ["hgaa/log.py: make_logger"]}
{"id": "C112", "title": "Log files are complete and in order", "statement": "If no log file is opened twice, then after any sequence of records each log file has in it what it had before and then, in order, one line for every handler of the file on the way of every record that was not dropped. Importing the module with four different files, and calling make_logger with a file not open yet, keeps this condition. Without it records are written over; and if another process empties a file, the next record comes after a gap of NULs.", "quantifier": "all environments, states of the process and sequences of records", "why_tests_cant": "The statement is about every sequence of records and every set of loggers.", "anchors": ["hgaa/log.py"]}
{"id": "C113", "title": "The password of the database in the log", "statement": "get_engine makes no records if the engine is known; otherwise one of level INFO with the type of the database and the name, and then one of level ERROR if the type is not supported or one of level DEBUG with the connection string. If the logger does not take records of level DEBUG, then all log files and everything else about the log are the same for any two configurations with the same type of database, so nothing of user, password, host, port and name of the database is logged. If it does, then the password of a MySQL database is in every file to which lines of the logger are written.", "quantifier": "all lawful character tables, configurations, sets of known engines, drivers, environments and states of the log", "why_tests_cant": "That a secret does not influence the log is a statement about pairs of runs for all secrets and all states of the log.", "anchors": ["hgaa/database.py: get_engine", "hgaa/log.py"]}
{"id": "C114", "title": "What requests leave in the log of the attribute authority", "statement": "Records do not change the answer of attribute_request. For every outcome the exact records are given. A login is recorded exactly if the password was found to be right. A request refused for its user name or password ends with a record of the name given and the address. If a certificate is issued, the login and then the ids of exactly the selected attributes are recorded. Without level DEBUG, records and answer depend on password, pepper and stored hash only through whether the password is right. With level DEBUG a successful login puts the stored hash into the log file. A request without valid credentials can put any line into the log file.", "quantifier": "all databases, requests, clocks, hash functions (for the stored hash: those for which the right password hashes to the stored hash), environments and states of the log", "why_tests_cant": "Audit properties hold for all requests and databases; independence from secrets is about pairs of runs.", "anchors": ["hgaa/services/aauth.py: attribute_request"]}
{"id": "C115", "title": "Recursion of the parser", "statement": "With a limit on the number of frames of the recursive rules, a policy that is accepted and in which at most m parentheses are open at a time is parsed with 3(m+1) frames, with the same tree and ids as without a limit, and raises RecursionError with fewer. Under any limit parsing any text ends as without a limit or with RecursionError.", "quantifier": "all lawful character tables, texts, limits and id counters", "why_tests_cant": "The bound holds exactly for every nesting depth and every limit.", "anchors": ["hgpl/parsing.py: policy_rule, term_rule, exp_rule"]}
{"id": "C116", "title": "Recursion over trees", "statement": "Let m be the number of nodes on the longest path from the root, counting for evaluation only nodes without a true result and for the type check only nodes that are not skipped. With m frames or more evaluate, check, encode and == end as without a limit, with the same state. With fewer, evaluate, check and encode raise RecursionError or the exception they raise without a limit, and == raises RecursionError or gives False, in which case it is False without a limit.", "quantifier": "all trees, symbol tables, warning levels and limits", "why_tests_cant": "Exact bounds over all trees and limits.", "anchors": ["hgpl/interpreting.py: _evaluate_node", "hgpl/semantics.py: _scan_tree", "hgpl/ast.py: ASTEncoder._encode_node", "hgpl/ast.py: ASTNode.__eq__"]}
{"id": "C117", "title": "Long policies parse but cannot be evaluated", "statement": "Three frames are enough to parse user.a AND user.a AND ... of any length. But a policy whose tree has more AND and OR on the way down to the left than there are frames raises RecursionError when it is evaluated or type checked, whatever the symbol table, and interpreter and type checker are left unchanged. Comparing such a tree with itself raises RecursionError too, and encoding it raises.", "quantifier": "all numbers of conditions, limits, symbol tables and states of the type checker", "why_tests_cant": "The failure shows only beyond the interpreter's limit, and holds for every length beyond every limit.", "anchors": ["hgpl/parsing.py: policy_rule, term_rule", "hgpl/interpreting.py: _evaluate_node", "hgpl/semantics.py: _scan_tree"]}
{"id": "C118", "title": "repr of tokens and trees evaluates back", "statement": "Evaluating repr(token) gives the token again exactly if its value is not 0, 0.0, \"\" or an infinite float: with 0, 0.0 and \"\" the token that comes back has no value, with an infinite float evaluating fails. Evaluating repr(ast) of a parsed policy gives a tree of the same classes, tokens, end tokens and children exactly if no literal of the policy is such a value, and fails exactly if one is infinite. Parsed policies without infinite floats have the same repr only if their trees are equal.", "quantifier": "all tokens with position -1 or more, all trees of nodes with as many children as their constructors take, all policies and all texts of floats that are read back", "why_tests_cant": "Every string, number and tree shape has to be read back, with every way of quoting and escaping characters.", "anchors": ["hgpl/lexing.py: Token.__repr__", "hgpl/ast.py: ASTNode.__repr__", "hgpl/ast.py: SetNode.__repr__"]}
{"id": "C119", "title": "What str(ast) shows", "statement": "If the texts of the results contain no line breaks, two trees have the same str exactly if they have the same shape, token types, token values and texts of results. With line breaks in attribute values different values can have the same text. str(ast) fails only with AttributeError, exactly if a result is a symbol whose type is None.", "quantifier": "all trees, symbol values and texts of floats that are read back", "why_tests_cant": "The statement compares all pairs of trees of any size.", "anchors": ["hgpl/ast.py: ASTNode._print_tree", "hgpl/symbols.py: Symbol.__str__"]}
{"id": "C120", "title": "str of tokens and symbol tables", "statement": "Two tokens as the lexer makes them have the same str exactly if they have the same type and value, so the list of token texts shown for a policy determines the tokens up to their positions. str(symbol_table) works for the empty table only and raises AttributeError for all others.", "quantifier": "all texts, tokens and symbol tables", "why_tests_cant": "All pairs of tokens and all tables are compared; the repository has no test of these texts.", "anchors": ["hgpl/lexing.py: Token.__str__", "hgpl/symbols.py: SymbolTable.__str__"]}
{"id": "C121", "title": "Which policies can raise", "statement": "A policy evaluates without an exception under every symbol table (with hashable values in its collections) exactly if its text meets a static condition: it is not a bare literal, has no literal 0, 0.0 or \"\" as an operand or set element, no condition below NOT, AND or OR that is an attribute or a literal other than TRUE, no NULL in set literals compared with each other by = or !=, in an operand of SUBSET, or in a set literal with an attribute on the left of IN, and no NULL looked for in an attribute by IN. A policy that fails the condition raises when all its attributes are empty sets. A policy that meets it and is not a bare attribute always gives TRUE, FALSE or UNDEF.", "quantifier": "all policies and symbol tables, all warning levels above WARN", "why_tests_cant": "Both directions quantify over all policies, one of them over all tables; a test shows single crashes.", "anchors": ["hgpl/interpreting.py: _evaluate_node, _evaluate_set_node, _evaluate_not_node, _evaluate_bool_op_node, _eq_op, _in_op, _subset_op"]}
{"id": "C122", "title": "Evaluating again with other symbol tables", "statement": "After any sequence of calls of evaluate on one Interpreter, with any tables and levels, returning or raising, the next call gives exactly this: conditions below the root that were TRUE stay TRUE; attributes below the root that were found with a usable value other than FALSE keep it; everything else, and the root, is computed from the latest table; warnings of all calls accumulate. Hence a conjunction that was TRUE stays TRUE whatever tables follow, a disjunction that was TRUE is TRUE again or raises, a negation that was FALSE stays FALSE, and a comparison whose attributes were all found (none of them FALSE) gives its first answer for ever.", "quantifier": "all policies, all sequences of tables over the same symbol objects, all levels", "why_tests_cant": "Sequences of calls are unbounded, and exceptions leave trees evaluated in part; the statement covers every state so reached.", "anchors": ["hgpl/interpreting.py: Interpreter._evaluate_node lines 258-274, evaluate lines 279-291", "hgpl/ast.py: ASTResult.__bool__"]}
{"id": "C123", "title": "The audit trail of the policy authority is complete, but records sessions before they exist", "statement": "Recording does not change what a request to the policy authority returns or raises. Every ClientFault of start_session and evaluate leaves exactly one ERROR record, the one written for that fault with the address of the client; every session that is stored leaves exactly one INFO record; a request with a known address and known format numbers always leaves exactly one record. The INFO record is made before the commit, so a failing commit leaves the record of a session that does not exist: over any history, INFO records equal stored plus lost sessions. The records of start_session do not depend on the session id, the session times, the service or whether the commit succeeds; a serial number is named only if it is in use with another hash.", "quantifier": "all databases, certificate sets, policies, environments and histories of requests", "why_tests_cant": "Universal over inputs and histories; that something is not disclosed is a property of pairs of runs.", "anchors": ["hgaa/services/pauth.py: _check_cert, start_session, evaluate, trusted_attribute_authorities, info, __init__"]}
{"id": "C124", "title": "Errors of the lexer, exactly", "statement": "Reading a policy raises exactly if, after lexemes and white space, the text goes on with something on an explicit list of bad beginnings (a character no lexeme begins with, '!' without '=', a string without end or with a forbidden character, a number with '.' and no digit or with two '.'s, a number Python cannot read, an attribute without a name or of an unknown class, an unknown identifier), and then message, position and token of the error are those of that entry; nothing else is ever raised, and the entry is unique. The position lies within the policy, the token of the error begins at a character of the policy that is not white space and not after the position.", "quantifier": "all texts, all character classifications of Python", "why_tests_cant": "The texts are unbounded; completeness of the list of errors is a statement about all of them.", "anchors": ["hgpl/lexing.py: Lexer._string_char, _number, _string, _id, next, tokenize", "hgpl/errors.py: LexerError"]}
{"id": "C125", "title": "Errors of the parser, exactly, at the first wrong token", "statement": "For every token list the error of the parser (message, position, token and rule), or that there is none, is what a table-driven automaton with a stack of open parentheses says. The token of the error is the first one at which the tokens cannot be continued to a policy: the tokens before it can, with it none can, save that a constant that begins a comparison is reported when the token after it is no comparison operator. Every message begins with \"Syntax error, \": the default message of _eat and the messages about missing braces are never shown. An error about a parenthesis names an open parenthesis with a complete policy between it and the token of the error, which is no ')'.", "quantifier": "all token lists, hence all texts", "why_tests_cant": "Token lists and nesting are unbounded; that no later token is reported and no other message can appear is a statement about all inputs.", "anchors": ["hgpl/parsing.py: all rules of Parser and parse", "hgpl/errors.py: ParserError"]}
{"id": "C126", "title": "What the type checker says, exactly", "statement": "Every issue the type checker reports on a policy carries exactly one message, determined by the comparison alone: for an error the text that belongs to the operator and the kinds of the two operands, for a warning the full names of the attributes compared, each shown as the first attribute of the policy with the same name was written, lower-cased (for ASCII names: the full name in lower case). check(level) raises the first issue of that level with its own message, and forgetting the messages gives the issues and outcomes of the checker.", "quantifier": "all policies whose attribute names lower-case well (all ASCII ones), all levels", "why_tests_cant": "Policies are unbounded, and which spelling of an attribute is shown depends on everything before it.", "anchors": ["hgpl/semantics.py: TypeChecker._att_node, _att_check, _type_error, _num_check, _eq_check, _in_check, _subset_check, check", "hgpl/errors.py: TypeCheckerError, TypeCheckerWarning"]}
{"id": "C127", "title": "What the record of an invalid policy shows", "statement": "evaluate of the policy authority refuses a policy exactly if lexer, parser or type checker have something to say about it, warnings included; the fault sent to the client and the one record left show exactly the first error: its message, its position, at most 21 characters of the policy around the position, and the rule for an error of the parser; or the text of a builtin exception. The excerpt is a contiguous part of the policy, unchanged: with a line break, a character no lexeme begins with and up to ten more characters a client begins a line of the log with a text of its own. An unknown identifier is shown in full whatever its length.", "quantifier": "all policies whose attribute names lower-case well (all ASCII ones); forging for all such characters and texts", "why_tests_cant": "The equivalence covers all texts; tests show single messages.", "anchors": ["hgaa/services/pauth.py: PolicyAuthority.evaluate lines 325-336", "hgpl/errors.py: HGPLError.__str__, near, ParserError.__str__"]}
{"id": "C128", "title": "What evaluate says, exactly", "statement": "After evaluate of a new Interpreter on a policy from a text, the texts of interpreter.warnings are, in order and word for word, what the policy says for the state of the attributes: for every attribute met, left to right and inside out, that it is unknown, has no value, or has an invalid type, with its class and its name as written, its position and the excerpt; for every comparison with values that do not fit, which operator, without a position; up to the first error. What evaluate raises shows the text of the error, or the text of the first warning if the level is WARN or lower, or of a builtin exception. Forgetting the texts gives the warnings and outcomes of the interpreter.", "quantifier": "all policies, tables, levels and states of the interpreter", "why_tests_cant": "Policies and tables are unbounded; the order and completeness of the warnings is a statement about all of them.", "anchors": ["hgpl/interpreting.py: Interpreter.evaluate, _evaluate_node, _evaluate_att_node, _evaluate_op_node, _warn, _error", "hgpl/errors.py: InterpreterError, InterpreterWarning"]}
{"id": "C129", "title": "Warnings tell kinds of attributes, not values", "statement": "Let two symbol tables give every attribute of a policy the same kind: unknown, without value, of a type that does not fit, number, text, TRUE or FALSE, UNDEF, collection, or list with elements that can not be hashed. Then the texts of the warnings after evaluate with one table are the beginning of those with the other; and if evaluate at level ERROR raises for neither table, the texts of the warnings are the same, and so is the text of what evaluate raises at any level.", "quantifier": "all policies, pairs of tables, levels", "why_tests_cant": "A statement about pairs of runs over all values of attributes (noninterference).", "anchors": ["hgpl/interpreting.py: Interpreter.evaluate, _evaluate_op_node, _evaluate_att_node", "hgpl/errors.py: InterpreterWarning"]}
{"id": "C130", "title": "The console of the policy demo", "statement": "In the window of the policy demo, pressing an enabled button adds exactly one paragraph to the console, determined by the policy and the attributes: Tokenize and Parse show the number of tokens and success, or the one error of C124 and C125 with its excerpt; Type Check lists all errors, then all warnings, in the order of the policy with the texts of C126, and the result PASS, WARN or ERROR; Interpret lists the warnings of C128 and the result, or only the error, which hides the warnings before it. Reset leaves only 'Reset.'; nothing else changes the console. So after any sequence of user actions it is a sequence of such paragraphs.", "quantifier": "all sequences of user actions, all policies and attribute tables (for Type Check: policies whose attribute names lower-case well, all ASCII ones)", "why_tests_cant": "Histories of user actions, policies and tables are unbounded.", "anchors": ["hgpl/gui/demos.py: _command_tokenize, _command_parse, _command_type_check, _command_interpret, _command_reset"]}
{"id": "C131", "title": "Concurrent requests for certificates do not notice each other", "statement": "If the random serial numbers of calls of attribute_request made at the same time differ, then whatever the order of their steps, the sizes of the pieces in which files are written and read, and whichever steps fail, each call ends as it would alone: a response is the certificate of this very call, for the user whose password was right when it asked, with the attributes its query saw, and is what its file contains; exceptions and failures are its own; other files are untouched; and without failures it ends after at most six steps and two per byte.", "quantifier": "all sets of concurrent calls, databases changing meanwhile, directories, interleavings, partial writes and reads, and fault points", "why_tests_cant": "Interleavings, partial writes and faults cannot be enumerated by tests.", "anchors": ["hgaa/services/aauth.py: attribute_request, _make_ac"]}
{"id": "C132", "title": "A serial number drawn twice can hand out somebody else's certificate", "statement": "If two calls of attribute_request draw the same serial number, then, for all users and certificates, there are orders of their steps after which both are answered with the certificate of the second, and orders after which both are answered with the second certificate followed by the rest of the longer first one.", "quantifier": "all pairs of successful calls with the same serial number", "why_tests_cant": "Needs a race; the statement is about all pairs of calls.", "anchors": ["hgaa/services/aauth.py: attribute_request, _make_ac"]}
{"id": "C133", "title": "Results stored in the nodes of an evaluated policy", "statement": "After parsing, only the nodes of constants and of the literals TRUE, FALSE and UNDEF hold results. After the first evaluate on the tree, whether it returns or raises, each node holds the value of its own subexpression if that was reached and has one, and nothing otherwise: what stands to the right of an error is not reached, operators above it are blank, and a rejected constant keeps its value. So for every policy that is not a bare literal all nodes hold results exactly if evaluation finds a value, also when a warning is raised afterwards, and the root is blank exactly if evaluation raises an error.", "quantifier": "all policies, symbol tables whose sets are sets, and warning levels", "why_tests_cant": "Every subexpression of every policy is concerned, at every point an error can happen.", "anchors": ["hgpl/interpreting.py: Interpreter._evaluate_node lines 258-274, evaluate lines 279-291", "hgpl/ast.py: ASTNode, ASTResult"]}
{"id": "C134", "title": "What the trees of the policy demo show", "statement": "Whatever the user does in the policy demo, the token tree is empty while Tokenize is enabled and otherwise shows type, value and position of exactly the tokens of the policy in the combo box; the AST tree is empty until the policy is parsed and then shows its tree with the results of constants only; the symbol tree is empty until the policy was type checked and then has one row for each attribute, in the order of first occurrence, with the inferred type and no value. Once Interpret found a value, the AST tree shows the value of every subexpression, and the symbol tree type and value of every attribute, for the attribute table with which Interpret last found one since Reset; later edits and Interprets without a value do not change them.", "quantifier": "all opened windows, attribute tables whose sets are sets, and sequences of user actions", "why_tests_cant": "Quantifies over all histories of actions and all policies; the rows are relative to an earlier table.", "anchors": ["hgpl/gui/demos.py: _build_token_list, _build_ast, _build_symbol_table, _insert_ast_nodes, _command_tokenize, _command_parse, _command_type_check, _command_interpret, _command_reset"]}
{"id": "C135", "title": "What the rows of attributes of the policy demo show", "statement": "In tables as built by SymbolTableBuilder in which no attribute outside the five classes bears the full name of another, the row of each attribute of one of the classes shows the value of the attribute after any actions of the user, where True and TRUE count as the same. A text that is a value of the type of the attribute shows in its row and in no other, and nothing else changes rows. For an attribute of no listed class the row shows the new value although an exception is raised and the attribute keeps its value.", "quantifier": "all tables, rows, texts and sequences of user actions", "why_tests_cant": "All histories of edits, and all texts and tables.", "anchors": ["hgpl/gui/demos.py: _build_att_tree lines 142-150, _update_att lines 152-178", "hgpl/symbols.py: SymbolTable.set_value"]}
{"id": "C136", "title": "Decimal numbers in policies are compared as binary64 numbers", "statement": "A policy that compares two numbers, with any white space, evaluates without warnings to the comparison of what the numbers are read as: integers as they are, numbers with a point as the nearest binary64 number (ties to even, infinite from half way beyond the largest), and is refused with an InterpreterError if one is read as zero. So comparisons of integers are right; all six comparisons of numbers of at most fifteen digits are right; TRUE for <, > and != and FALSE for =, <= and >= are right for all numbers with a point and integers up to 2^53, also against attributes; but distinct longer numbers can be told equal, and an integer above 2^53 can be told larger than a larger number with a point.", "quantifier": "all numerals, white space, symbol tables and warning levels", "why_tests_cant": "Infinitely many numerals; rounding errors show at isolated numbers only.", "anchors": ["hgpl/lexing.py: Lexer._number lines 105-130", "hgpl/interpreting.py: Interpreter._lt_op, _gt_op, _lte_op, _gte_op, _eq_op"]}
{"id": "C137", "title": "Node ids run out over the life of a process", "statement": "The process-wide counter of node ids never falls: every parse, also one that fails, raises it by at most the number of characters of its text, and every decoding by at most a tenth of the bytes it is given, a successful one by exactly the number of records announced. While the calls made cannot have added up to 65536, ids are no obstacle to encoding a parsed policy. Once the counter has reached 65536, encoding fails with struct.error for every policy parsed later, whatever is called in between. Decoded trees carry the ids of their encoding, so decoding twice gives trees with equal ids.", "quantifier": "all sequences of parses and decodings, all texts and bytes, all values of the counter", "why_tests_cant": "The failure depends on the whole history of a process; a test would have to make 65536 nodes, and absence of failure concerns all histories.", "anchors": ["hgpl/ast.py: ASTNode.__init__ lines 120-130, ASTEncoder lines 327-467", "hgpl/parsing.py: Parser"]}
{"id": "C138", "title": "Policies can be rewritten by exactly the laws of Kleene's logic", "statement": "Take a form built from NOT, AND and OR with places for policies, and put bracketed policy texts into the places. Evaluating the resulting text gives the truth value t exactly if every policy put in gives a truth value (evaluated under NOT, without raising or warning beyond the level) and t is the value of the form in Kleene's logic. A form f can be replaced by a form g, for all policies put in, all attributes and all warning levels, without changing any truth value given, if and only if every place of g is a place of f and both have the same truth table with TRUE, FALSE and UNDEF. So De Morgan's laws, commutativity, associativity and distributivity hold for policy texts in both directions; double negation and idempotence hold unless a bare literal is left; absorption holds only towards the shorter policy; and p OR NOT p may be UNDEF. Policies giving the same truth values can replace each other inside every policy.", "quantifier": "all forms, all policy texts put into them, all symbol tables, all warning levels, every lawful Unicode table", "why_tests_cant": "The laws concern all policies in all contexts, and the converse concerns all pairs of forms.", "anchors": ["hgpl/interpreting.py: Interpreter", "hgpl/parsing.py: Parser", "hgpl/lexing.py: Lexer"]}
{"id": "C139", "title": "Threads that parse at the same time can get equal node ids", "statement": "The constructor of a node reads the shared counter and writes it later. For threads whose reads and writes are interleaved in any way, all nodes made get distinct ids if and only if no thread writes between the read and the write of another. A policy parsed with given ids below 2^16 comes back from encoding and decoding as it was if and only if its ids are distinct, so parsing undisturbed is safe. But for every policy of the form P AND Q (or P OR Q) with as many nodes in P as in Q there is an interleaving with two other threads after which its encoding is decoded, without an exception, as Q AND Q (or Q OR Q).", "quantifier": "all interleavings of any number of threads, all values of the counter, all policy texts shorter than 2^16 with values that survive encoding", "why_tests_cant": "Interleavings of threads cannot be chosen by a test, and the equivalence concerns all of them.", "anchors": ["hgpl/ast.py: ASTNode.__init__ line 127, ASTEncoder lines 327-467", "hgaa/services/pauth.py: lines 326-330"]}
{"id": "C140", "title": "The tree of a certificate shows its parts, and what it leaves out", "statement": "The tree drawn of a certificate in the attribute authority demo has the eight sections Information, Issuer, Holder, Attribute Set, Revocation Rules, Delegation Rules, Extensions and Signature, each with exactly the fields that are there, and two certificates that can be drawn have the same tree if and only if they agree up to the further bytes of attributes, values that are absent or the word 'none' in any case, times with the same date, and parts that are absent or empty. Drawing ends with the exception of the first part that cannot be drawn and leaves a beginning of the tree; of certificates that were received only a signature without value cannot be drawn, and certificates issued by the authority are drawn completely, with the key asked for as key of the holder.", "quantifier": "all certificates, all functions from times to dates", "why_tests_cant": "The equivalence relates all pairs of certificates; tests draw single ones.", "anchors": ["hgaa/clients/demos/aauth.py: AAuthDemoFrame._build_ac_tree lines 196-294", "hgaa/attcert.py: AttributeCertificate line 463"]}
{"id": "C141", "title": "The sample data of the two services fit together", "statement": "Filling each database the first time in a process, with no fault of the database, leaves exactly the sample rows in it whatever was there before and changes no other database. With the shipped configuration every certificate the attribute authority then issues is for one of the seven sample users whose password was accepted: for dan it has exactly the requested ones of six attributes (all if none is named), for the others no attribute of the user, and then none was named. The sample policy authority trusts exactly the uid of the shipped attribute authority: every certificate so issued starts a session strictly within its hour, whatever key signed it, and a session is started only if every certificate sent is verified and issued under that uid. Asking for a policy by the uid of the authority followed by anything fails, as the sample policies are stored under another scheme.", "quantifier": "all earlier contents of the databases, all ASCII requests that are answered, all keys, addresses and times; collations that tell the sample texts apart (for policies: that equate texts only up to ASCII case); lawful signature schemes; no failing commit where a session is promised", "why_tests_cant": "the repository has no test that uses the sample data without running services and a MySQL server; a test would try one request at one time, with one key", "anchors": ["hgaa/schema/test/test_aauth.py: DB_TEST_SET lines 4-32", "hgaa/schema/test/test_pauth.py: DB_TEST_SET lines 4-34", "hgaa/tools.py: lines 99-117", "hgaa/database.py: populate_db lines 11-44", "hgaa/services/aauth.py: AttributeAuthority.attribute_request lines 428-534", "hgaa/services/pauth.py: PolicyAuthority.start_session lines 215-301"]}
{"id": "C142", "title": "Which sessions there is room for in the database", "statement": "With a database that refuses values that do not fit the declared columns, start_session succeeds exactly if it would without columns and: the uid of the service and the address of the client have at most 100 characters, the time is a signed number of 32 bits, some certificate sent ends and all were issued before 2^31 seconds after 1970, and each certificate not yet stored ends before that and has at most 65535 bytes as sent. A request refused for this changes nothing; what is stored always fits. So no session starts from 2^31 seconds (January 2038) on, and a certificate issued by the attribute authority that ends then or later, sent alone, never starts one, though certificates can hold times up to 2^32 and the checks accept them. Before that, issued certificates start sessions if the three lengths are kept. The sample data fits.", "quantifier": "all databases with distinct primary keys, all requests, times, collations and random numbers of 160 bits, hashes of at most 32 bytes; for the statements about issued certificates ASCII requests and lawful signature schemes", "why_tests_cant": "a test would need a MySQL server and one request for each limit, with a clock set after 2038", "anchors": ["hgaa/schema/pauth.py: lines 13-81", "hgaa/schema/aauth.py: lines 13-42", "hgaa/services/pauth.py: PolicyAuthority.start_session lines 215-301", "hgaa/attcert.py: ACRevocationRules lines 280-345", "hgaa/services/aauth.py: AttributeAuthority._make_ac lines 358-425"]}
{"id": "C143", "title": "Policies of version 1 of the language", "statement": "The grammars of version 1 and of version 2 without boolean constants as atomic (as the parser has it) derive the same token lists, each with one syntax tree at most, and every such list can be written in one way as operands and parentheses with AND and OR between them. A text gives a truth value exactly if it does when it is read by version 1, where the rest of the policy is the right operand of an operator. If in no parentheses and not outside an OR stands behind an AND, both readings give the same. Else, unless this happens within negated parentheses, the code gives at least what version 1 would give (FALSE < UNDEF < TRUE), so that it allows all that version 1 would allow. For every sequence of operators with an OR behind an AND there is a text that gives TRUE but would give FALSE by version 1, for all symbols and levels; within NOT ( ) one that gives FALSE and would give TRUE.", "quantifier": "all token lists and texts, all lawful character tables, symbol tables whose set values have elements of hashable types, warning levels, and all sequences of operators", "why_tests_cant": "texts, symbol tables and sequences of operators are unbounded, and version 1 has no implementation to compare with", "anchors": ["hgpl/docs/HGPL_ABNF_V1.txt: lines 1-19", "hgpl/docs/HGPL_ABNF_V2.txt: lines 1-23", "hgpl/parsing.py: Parser._policy_rule, _term_rule, _exp_rule", "hgpl/interpreting.py: Interpreter.evaluate lines 279-291"]}
{"id": "C144", "title": "Foreign keys of the attribute authority", "statement": "On a database that checks the foreign keys of assignments, wiping, filling with the sample data and pop_and_gen do what they do on one that does not: they are never refused for a foreign key. Deleting the assignments before the other tables always works, any other order is refused once an assignment is stored. gen_atts does the same on both if the first user is stored or no attributes are asked for, and otherwise raises an IntegrityError and stores nothing. Whatever sequence of tools runs, with whatever failures, every assignment keeps its user and attribute. A database that does not check them keeps its references in gen_atts exactly if nothing is stored or the first user is there; without that user gen_atts succeeds, nobody can sign in as the owner, and whoever is stored with number 1 later has all the generated attributes. The authority reads one attribute per assignment whose attribute is stored, in their order, and with intact references every assignment.", "quantifier": "all databases, configurations, failures, collations, numbers of attributes and sequences of uses of the tools; what gen_atts leaves in a database without the check for collations that tell the generated ids apart", "why_tests_cant": "contents of databases and sequences of commands are unbounded, and tests on SQLite do not check foreign keys", "anchors": ["hgaa/schema/aauth.py: AttributeAssignment lines 33-42", "hgaa/database.py: populate_db lines 25-42", "hgaa/tools.py: gen_atts, pop_and_gen lines 51-70", "hgaa/services/aauth.py: lines 452-453"]}
{"id": "C145", "title": "Types that promise a decision", "statement": "Attributes are promised to hold a number, a text, TRUE or FALSE, or a collection. A policy that is well typed under these promises evaluates to TRUE or FALSE without a warning for every symbol table that keeps them; a policy that is not well typed fails to for every table that keeps them and has empty collections, and there is such a table. For policies of orderings and equalities between literals that are not rejected and attributes, at most one of them an attribute and NULL not beside an attribute, together with attributes that are not compared and TRUE below connectives, the type checker gives PASS exactly if there are promises under which the policy is well typed; those read from the types it infers are such promises. Outside these policies it errs both ways: it passes attributes compared with set literals or, by = and !=, with NULL, which are well typed under no promises and, for sets, decided by no value, and it warns of an attribute compared with a number and then with an attribute not seen before, which is well typed if both hold numbers.", "quantifier": "all policies, promises, symbol tables, numbers of nodes used before and warning levels; for the type checker, policies whose attribute names lower-case well (all ASCII names do)", "why_tests_cant": "policies, tables and promises are unbounded, and that a decision is always reached is a statement about all values of all attributes", "anchors": ["hgpl/interpreting.py: Interpreter", "hgpl/semantics.py: TypeChecker", "hgpl/symbols.py: Symbol, SymbolTable"]}
{"id": "C146", "title": "The example policies of the demo always decide", "statement": "In the policy demo, if every attribute of the table is shown and has a value of its type when the window is opened, this stays so whatever is typed and clicked, and Interpret shows TRUE or FALSE and no warning for every policy that is well typed for these types and names only attributes of the table. The table and the three policies that the demo is opened with by default meet these conditions, and Reset, choosing one of the policies, Tokenize, Parse and Type Check enable Interpret from everywhere. As long as no value is edited the three policies are shown to be TRUE. The first is TRUE exactly if the user has number 4, 5, 6 or 72 or is the owner, the second exactly if every required permission equals one of the user's and the user is at least 18, the third exactly if the user is an administrator or a doctor other than the patient.", "quantifier": "all sequences of events of the window, all texts entered for values, all policies; all values of the types of the attributes in the three policies, where their numbers are integers", "why_tests_cant": "sequences of events and values are unbounded", "anchors": ["hgpl/gui/demos.py: LexerDemo, LexerDemoFrame", "hgpl/interpreting.py: Interpreter", "hgpl/symbols.py: SymbolTableBuilder"]}
{"id": "C147", "title": "The start of the server", "statement": "Whatever is configured, importing the handler makes exactly the records and calls of Ladon that follow from the level, the enabled services and the directory, and raises only what making the application raises. Running it serves exactly if in addition the text of SERVICE_PORT is an integer as Python reads it and the server can be made for the configured host and this port; if the text is no integer a ValueError is raised after the application is made. The record names the host, or localhost if it is blank, and the number of the port, while the URLs of both services name the same host and the text of the port, which can differ from the number. As shipped both services are served at port 8888 with Ladon's level 6.", "quantifier": "all configurations, tables of Unicode properties that are lawful, directories, states of logging, and faults of Ladon and of the server", "why_tests_cant": "configurations, texts of ports and states of logging are unbounded", "anchors": ["hgaa/handler.py: lines 12-67", "hgaa/services/__init__.py: ServiceList", "hgaa/services/aauth.py: AttributeAuthority.__init__", "hgaa/services/pauth.py: PolicyAuthority.__init__"]}
{"id": "C148", "title": "Foreign keys of the policy authority, and tables filled anew while it serves", "statement": "Checking the foreign keys of the assignments of certificates changes nothing for start_session: neither for a call alone, whatever is stored, nor for calls at the same time and tools that add authorities and policies, in any order of steps, as long as no table is wiped. Deleting the assignments before certificates and sessions, as populate_db does, is never refused and empties the tables; certificates or sessions first is refused as soon as an assignment has both. If tables are also wiped between any steps, keys stay unique, hashes right, and every session has an assignment and ends with its certificates or after a day; that the certificates of all assignments are stored is kept by a database that checks the keys, and by one that does not as long as no table is wiped. A call that has found its certificate stored before the wipe is granted a session without a stored certificate, or an IntegrityError if keys are checked; a call with a new certificate is granted one in either case although no authority is stored any more.", "quantifier": "all states of the database, lists of calls, orders of steps, wipes and additions, states seen by queries, faults of commits, collations and cryptographic functions", "why_tests_cant": "the orders of steps of calls and tools and the states of the database are unbounded", "anchors": ["hgaa/schema/pauth.py: AttributeCertificateAssignment", "hgaa/services/pauth.py: PolicyAuthority.start_session", "hgaa/database.py: populate_db"]}
{"id": "C149", "title": "What the tools print, record and write", "statement": "With their output, populate_db, build_database, gen_atts and the command line have the effects and results they have without it (C73, C94, C97, C98). A command line that is refused makes no record, changes nothing and prints one line, or none if only the number of genatts is no integer; one that is accepted prints nothing, except password, which prints the plaintext and the hash. The records of populate_db are exactly those of making the engine, then one for the start, for a wipe one per table up to the one that fails, and for adding; the record that the population is complete is made exactly if populate_db succeeds, and likewise that building has finished. gen_aauth_key succeeds exactly if generating, encrypting, opening and writing do and a file is configured, and then puts out exactly four records and the key; it empties the file of the old key before it writes, so the old key is lost if writing fails. What is printed and recorded, the databases and the results do not depend on KEY_PASS, PASS_PEPPER and DB_PASS, unless a database is of type MYSQL, encrypting the key fails for one of the passphrases, or the hash printed differs.", "quantifier": "all configurations, command lines, contents of databases, engines made before, faults of the database and of files, and hash functions", "why_tests_cant": "that no secret is said is a statement about pairs of runs for all configurations and command lines", "anchors": ["hgaa/tools.py: __main__", "hgaa/tools.py: build_database", "hgaa/tools.py: gen_aauth_key", "hgaa/tools.py: gen_atts", "hgaa/database.py: populate_db", "hgaa/database.py: get_engine"]}
{"id": "C150", "title": "What a session does not depend on", "statement": "If start_session succeeds with a list of certificates, then with any other list whose certificates are accepted at the same times, are not refused because of a stored serial number, and carry, one by one, the same serial numbers and times of issue and expiry it succeeds with the same answer, whoever sends it: issuer, holder, attributes, rules of delegation and revocation, extensions and signatures of the certificates make no difference to the answer, to the assignments stored and to the session stored but for the address. For one and the same list the answers, errors among them, are the same for any two callers whose address the server gives, and the databases afterwards differ at most in the address of the session. Two lists of certificates that each start a session, and have no serial number in common, together start one, until the earlier of the two ends, whatever their holders.", "quantifier": "all signature schemes, databases with primary keys, ways of comparing texts, clocks, session ids, certificates and callers", "why_tests_cant": "that fields have no influence is a statement about pairs of runs for all certificates", "anchors": ["hgaa/services/pauth.py: PolicyAuthority.start_session", "hgaa/services/pauth.py: PolicyAuthority._check_cert"]}
{"id": "C151", "title": "What is recorded when the attribute authority is set up and described", "statement": "An AttributeAuthority that cannot be set up records nothing before it raises. One that can makes exactly three records of level DEBUG, with its name, URI, revocation URL and public key, then those of get_engine (C113), and ends as without records. The record of the settings is on one line of printable ASCII characters if the settings are, whatever the key, since bytes are shown on one such line and different bytes are shown differently. The records, the exceptions and the public settings do not depend on PASS_PEPPER, KEY_PASS and the private key, nor on DB_PASS unless the database is of type MYSQL. info makes one record of level INFO with the address it is asked from, before anything that can fail but the address itself, and answers as without records.", "quantifier": "all configurations, key files, drivers, engines made before and callers", "why_tests_cant": "independence from secrets is a statement about pairs of runs, and escaping is needed for all keys", "anchors": ["hgaa/services/aauth.py: AttributeAuthority.__init__", "hgaa/services/aauth.py: AttributeAuthority.info", "hgaa/database.py: get_engine"]}
{"id": "C152", "title": "What the clients record", "statement": "Making a client records the attempt to connect to the configured service, at level INFO, or at level ERROR that the type of client is not supported, and nothing else; a client of attribute authorities whose key size is no integer records nothing. For any history of calls of info, attribute_request, trusted_attribute_authorities, start_session and update_service, with any answers and failures, the records and requests are exactly those that follow from the type, the description and the key size of the client, the arguments of update_service and whether connecting succeeds, and the public keys: credentials, private keys, answers, attributes asked for, certificates and the uid of the service are not recorded, and the clients and outcomes are those without records. As long as no call of update_service fails, every request of a new client is sent to the service named in the record right before it; after one that fails to connect the log names the new service while requests go to the old one.", "quantifier": "all configurations, clients, histories of calls, answers and failures of the transport", "why_tests_cant": "histories are unbounded, and that credentials are not recorded is a statement about pairs of runs", "anchors": ["hgaa/clients/aauth.py: AttributeAuthorityClient", "hgaa/clients/pauth.py: PolicyAuthorityClient"]}
{"id": "C153", "title": "Sizes of certificates and of encoded policies", "statement": "An encoded certificate has exactly certBytes bytes: fixed numbers for each part (10 for the issuer, 8 for the holder, 26 for version, serial number and time, 9 for each attribute, 12 for revocation, 4 for each extension, 2 for delegation and each list, 4 for the signature) and one for each byte of keys, extensions and signature and each character of texts; base 64 takes 4 bytes for every 3 begun, and the full text format 99 characters and the version more. The size of an issued certificate follows from the attributes selected, the rows about the connection, and the names, keys and addresses of authority and client. A request that passes all other checks gets a certificate exactly if each text and key of it, the number of attributes and the signature have less than 2^16 characters, entries or bytes, and the numbers fit. So certificates are issued that no session of a strict database can start from: sent alone exactly those of more than 65535 bytes, and in base 64 of more than 49149. An AST can be encoded exactly if it has less than 2^16 nodes, ids, positions, numbers of children and lengths of texts are below 2^16, INT values have 32 bits and FLOAT values round to binary32 numbers; it takes 3 bytes and 12 for each node, besides 4 for each number and one for each character of a text. For a policy text shorter than 2^16 with ids below 2^16 only the literals matter, and the size is at most 16 bytes for each character and 3.", "quantifier": "all certificates, signing arguments and formats; all authorities, databases and requests; all ASTs and policy texts", "why_tests_cant": "the sizes are formulas over all certificates and trees, and the conditions for encoding are exact, so that both directions need all inputs", "anchors": ["hgaa/attcert.py: AttributeCertificate.encode", "hgaa/attcert.py: AttributeCertificate.export_ac", "hgaa/services/aauth.py: AttributeAuthority.attribute_request", "hgaa/schema/pauth.py: AttributeCertificate", "hgpl/ast.py: ASTEncoder.encode"]}
{"id": "C154", "title": "What issued certificates do not depend on, and what their holders choose", "statement": "The answer to attribute_request, a certificate or an error, is the same for two databases that have the same users with the name in the request (as the database compares names), the same assignments for them and the same attributes assigned to them: other users, their passwords and assignments and other attributes do not matter, whether added before or after. Requests with an unknown name or a wrong password all get the same answer, whatever the database holds, whatever attributes are asked for and whatever key is given. Only the password followed by the pepper counts, not where one ends and the other begins; if bcrypt reads 72 bytes, as it does up to version 4, then of a password that long neither the rest nor the pepper counts. The client's key is not checked: if a request gets a certificate, it also gets one with any other key exactly if that has at most 49149 bytes and its cipher and the digits of its size at most 65533 characters. The two certificates decode to the same, except for the signature, the holder's key and algorithm and the connection attributes pub_key, pub_key_size and pub_key_algo, which are those the client gave.", "quantifier": "all authorities, databases, requests, clocks, ways of comparing texts, password hashes and signature schemes; for the key: signatures that can be made and have fewer than 2^16 bytes, and for the content of certificates ASCII texts", "why_tests_cant": "That an answer does not depend on something is about all pairs of databases, and that a key is not checked about all keys.", "anchors": ["hgaa/services/aauth.py: AttributeAuthority._make_con_att_set", "hgaa/services/aauth.py: AttributeAuthority._make_ac", "hgaa/services/aauth.py: AttributeAuthority.attribute_request"]}
{"id": "C155", "title": "Whom certificates name", "statement": "The uid of the holder of an issued certificate is that of the authority, /user/ and the name typed by the client. Two certificates, of one authority or of two, have the same uid of the holder exactly if authority and name are the same, or the uid of one authority continues that of the other by /user, or by /user/ and some text, and the name of its user is continued the same way: user/bob of /aa has the uid of bob of /aa/user. Names without a slash, and names of one authority, are not confused. The whole holder, which has also the name in it, is the same for two certificates exactly if the uid of the authority, the name and the key, its cipher and its size in the requests are the same; the text of the algorithm determines cipher and size, whatever characters the name of the cipher has.", "quantifier": "all pairs of authorities, databases, requests, clocks, ways of comparing texts, password hashes and lawful signature schemes, for ASCII texts", "why_tests_cant": "Which names are confused is an exact condition over all pairs of authorities and users.", "anchors": ["hgaa/services/aauth.py: AttributeAuthority._make_ac", "hgaa/services/aauth.py: AttributeAuthority.attribute_request"]}
{"id": "C156", "title": "Policies that mention each attribute once decide as soon as the decision is certain", "statement": "Take a policy that is well typed for promises about what attributes hold, in which every comparison is of an attribute and a single finite literal and no attribute is mentioned twice, and a symbol table in which each attribute of the policy is missing or keeps its promise. If warnings are not raised, evaluate returns a truth value. It is TRUE, or FALSE, exactly if it is so for every table that has the same and also the missing attributes; it is UNDEF exactly if one such table gives TRUE and another FALSE. A policy that mentions an attribute twice may give UNDEF although every such table gives TRUE: user.a = 1 OR user.a != 1.", "quantifier": "all texts of such policies, promises, symbol tables with or without the attributes, levels above WARN, lawful unicode tables", "why_tests_cant": "The decision is compared with those for all values of all missing attributes.", "anchors": ["hgpl/interpreting.py: Interpreter.evaluate", "hgpl/interpreting.py: Interpreter._evaluate_node"]}
{"id": "C157", "title": "Each attribute of a policy that mentions it once matters", "statement": "Take a policy that is well typed for promises about what attributes hold, in which every comparison is of an attribute and a single finite literal, no attribute is mentioned twice and no boolean constant stands for a condition. For each attribute it mentions there are two symbol tables that keep the promises and differ in this attribute only, for one of which evaluate returns TRUE and for the other FALSE. So no policy that does not mention the attribute can take its place: there is a table that keeps the promises for which the policy decides and the other one does not decide the same. Two policies of this kind that decide the same for all tables that keep the promises mention the same attributes.", "quantifier": "all texts of such policies, promises, attributes of theirs, other policies, levels above WARN, lawful unicode tables", "why_tests_cant": "That no policy without the attribute is equivalent is about all policies.", "anchors": ["hgpl/interpreting.py: Interpreter.evaluate", "hgpl/interpreting.py: Interpreter._evaluate_node"]}
{"id": "C158", "title": "Policies that mention each attribute once need attributes to decide", "statement": "Take a policy that is well typed for promises about what attributes hold, in which every comparison is of an attribute and a single finite literal and no attribute is mentioned twice. If all its attributes are missing, evaluate returns TRUE, or FALSE, exactly if it does so for all symbol tables that keep the promises. If no boolean constant stands for a condition, it returns UNDEF then. In this case there is also, for each attribute of the policy, a table that has all the others and keeps the promises about them, for which evaluate returns UNDEF, and it returns TRUE if this attribute is added with one value and FALSE if it is added with another one.", "quantifier": "all texts of such policies, promises, attributes of theirs, symbol tables, levels above WARN, lawful unicode tables", "why_tests_cant": "A decision without attributes is compared with the decisions for all tables.", "anchors": ["hgpl/interpreting.py: Interpreter.evaluate", "hgpl/interpreting.py: Interpreter._evaluate_node"]}
{"id": "C159", "title": "What passing the type checker says about decisions with missing attributes", "statement": "Take a plain policy (C145) in which every comparison is of an attribute and a single finite literal, no attribute is mentioned twice, and for which the type checker has nothing to report. If each attribute is missing or holds a value of the kind the checker inferred, and warnings are not raised, evaluate returns a truth value; it is TRUE, or FALSE, exactly if it is so however the missing attributes are added with values of the inferred kinds, and UNDEF exactly if they can be added to get TRUE and to get FALSE. If no boolean constant stands for a condition, then for each attribute there is a table with all the others that gives UNDEF, TRUE with one value of this attribute and FALSE with another. For a plain policy the checker reports something about, whatever kinds of values are promised, there is a table that keeps the promises in which the policy does not decide.", "quantifier": "all texts of such policies, heaps and levels of the type checker, symbol tables, promises, levels above WARN, lawful unicode tables", "why_tests_cant": "It ties the result of the type checker to all tables and all ways to add attributes.", "anchors": ["hgpl/semantics.py: TypeChecker.check", "hgpl/interpreting.py: Interpreter.evaluate"]}
{"id": "C160", "title": "Attributes that speak for a policy cannot take access away", "statement": "Every mention of an attribute in a policy speaks for it if it stands for itself or is the larger side of an ordering (the left one of > and >=, the right one of < and <=) and is under an even number of negations, or is the smaller side and under an odd number; it speaks against it the other way round. Let two symbol tables differ in one attribute only, which in the second is truer (FALSE, missing or UNDEF, TRUE) or a number that is no smaller. If evaluate returns a truth value for the first and warnings are not raised, it does for the second. If all mentions of the attribute speak for the policy, the second is no lower in the order FALSE, UNDEF, TRUE; in particular TRUE stays TRUE. If all speak against it, the second is no higher; in particular what is not TRUE does not become TRUE. Equality speaks neither for nor against: with user.a = 1, a higher and a lower number both take access away.", "quantifier": "all texts of policies, attributes, pairs of such symbol tables, levels above WARN, lawful unicode tables", "why_tests_cant": "It compares the decisions for all pairs of tables and policies of any depth.", "anchors": ["hgpl/interpreting.py: Interpreter.evaluate", "hgpl/interpreting.py: Interpreter._evaluate_node"]}
{"id": "C161", "title": "Adding to a collection cannot take access away where it speaks for the policy", "statement": "A mention of an attribute that holds a collection speaks for a policy if it is either side of IN or the right side of SUBSET and is under an even number of negations, or is the left side of SUBSET and under an odd number; it speaks against it if it is the left side of SUBSET under an even number, or one of the others under an odd number. Let two symbol tables differ in one attribute only, which in both is a set or a list of hashable elements, and let each element of the first have an equal one in the second. If evaluate returns a truth value for the first and warnings are not raised, it does for the second. If all mentions of the attribute speak for the policy, the second is no lower in the order FALSE, UNDEF, TRUE; in particular TRUE stays TRUE. If all speak against it, the second is no higher; in particular what is not TRUE does not become TRUE. Where mentions speak against the policy access can be lost: with user.a SUBSET {1} and with NOT (2 IN user.a), adding 2 to user.a = {1} turns TRUE into FALSE.", "quantifier": "all texts of policies, attributes, pairs of such symbol tables, levels above WARN, lawful unicode tables", "why_tests_cant": "It compares the decisions for all pairs of collections of any size and policies of any depth.", "anchors": ["hgpl/interpreting.py: Interpreter.evaluate", "hgpl/interpreting.py: Interpreter._in_op", "hgpl/interpreting.py: Interpreter._subset_op"]}
{"id": "C162", "title": "Which decisions can be written as policies", "statement": "Take a finite number of user attributes with names that differ after conversion to lower case, and a function from their truth values to a truth value. There is a policy for which evaluate returns this truth value for every symbol table in which the attributes are boolean with these values, those that are UNDEF possibly missing, exactly if the function never takes back TRUE or FALSE when attributes that were UNDEF become TRUE or FALSE. Warnings are not raised. There is one without comparisons exactly if, besides, the function is TRUE or FALSE whenever all attributes are. So every function from classical truth values to classical truth values can be written, for tables that have all attributes, and no policy is TRUE if an attribute is missing and FALSE if it is there. Every function from classical truth values to classical truth values also has a policy without comparisons that decides as soon as the decision is certain: it is TRUE exactly if the function is TRUE however UNDEF attributes are replaced by TRUE and FALSE, FALSE exactly if it is FALSE for all of them, and UNDEF otherwise.", "quantifier": "all numbers and names of attributes, functions, symbol tables, levels above WARN, lawful unicode tables", "why_tests_cant": "It says for all functions of any number of attributes whether some text of any length works for all symbol tables.", "anchors": ["hgpl/interpreting.py: Interpreter.evaluate", "hgpl/interpreting.py: Interpreter._evaluate_node"]}
{"id": "C163", "title": "Which decisions can be written so that attributes speak for them", "statement": "Take a finite number of user attributes with names that differ after conversion to lower case, and a function from their truth values to a truth value. There is a policy for which evaluate returns this truth value for every symbol table in which the attributes are boolean with these values, those that are UNDEF possibly missing, and in which all mentions of these attributes speak for the policy (as in C160), exactly if the function never takes back TRUE or FALSE when attributes that were UNDEF become TRUE or FALSE, and raising one attribute in the order FALSE, UNDEF, TRUE never lowers the function in this order. Warnings are not raised. So, among the decisions that can be written at all, writing policies such that attributes speak for them excludes exactly those that raising an attribute can lower.", "quantifier": "all numbers and names of attributes, functions, symbol tables, levels above WARN, lawful unicode tables", "why_tests_cant": "It says for all functions of any number of attributes whether some text of any length works for all symbol tables.", "anchors": ["hgpl/interpreting.py: Interpreter.evaluate", "hgpl/interpreting.py: Interpreter._evaluate_node"]}
{"id": "C164", "title": "A decision no longer changes for large numbers", "statement": "Take symbol tables, one for each integer, that differ only in one attribute, of type int, whose value is the integer. For every policy there is a bound from which on, and below the negative of which, evaluate returns the same truth value for all integers, or for none of them a truth value. Warnings are not raised. So decisions on a number are thresholds with finitely many exceptions: no policy gives TRUE for the even numbers and FALSE for the odd ones.", "quantifier": "all policies, families of symbol tables as described, levels above WARN, lawful unicode tables", "why_tests_cant": "It says for policies of any length that a bound exists beyond which infinitely many tables give the same.", "anchors": ["hgpl/interpreting.py: Interpreter.evaluate", "hgpl/interpreting.py: Interpreter._evaluate_node"]}
{"id": "C165", "title": "Policies cannot look into texts", "statement": "Take symbol tables, one for each string, that differ only in one attribute, of type string, whose value is the string. For every policy there is a finite list of strings such that evaluate returns the same truth value for all strings that are not in the list, or for none of them a truth value. Warnings are not raised. So when a policy gives TRUE for the strings with some property and FALSE for the others, the property or its opposite holds for finitely many strings only; for example no policy gives TRUE exactly for the strings that start with an a.", "quantifier": "all policies, families of symbol tables as described, properties of strings, levels above WARN, lawful unicode tables", "why_tests_cant": "It says for policies of any length that all but finitely many of infinitely many tables give the same.", "anchors": ["hgpl/interpreting.py: Interpreter.evaluate", "hgpl/interpreting.py: Interpreter._evaluate_node"]}
{"id": "C166", "title": "Which decisions on a number can be written", "statement": "Take the name of a user attribute and a property of integers. If the property is the same for all integers from some N on and for all up to -N, and the lexer accepts integers with as many digits as N has, there is a policy for which evaluate returns TRUE or FALSE, according to the property, for every symbol table in which the attribute is of type int and has the integer as its value. Where the number of digits is not limited, these are the only properties for which there is such a policy. Where integers may have at most L digits, as in CPython since 3.11 (4300), L is at least 309 and floats are binary64, there is such a policy exactly for the properties that are the same for all integers from 10^L on and for all up to -10^L. The literal 0, which evaluation rejects, is not needed. Warnings are not raised.", "quantifier": "all attribute names, properties of integers, symbol tables, levels above WARN, lawful unicode tables; the converse for those without a limit of digits and for those with a limit of at least 309, binary64 floats and values of digits below 10", "why_tests_cant": "It says for all properties of integers whether some text of any length works for all symbol tables.", "anchors": ["hgpl/interpreting.py: Interpreter.evaluate", "hgpl/interpreting.py: Interpreter._evaluate_node"]}
{"id": "C167", "title": "Which decisions on a text can be written", "statement": "Take the name of a user attribute and a property of strings. There is a policy for which evaluate returns TRUE or FALSE, according to the property, for every symbol table in which the attribute is of type string and has the string as its value, exactly if there is a finite list of non-empty strings made of printable ASCII characters other than quotes such that the property is the same for all strings that are not in the list. Warnings are not raised. So no policy tells the empty string from all others.", "quantifier": "all attribute names, properties of strings, symbol tables, levels above WARN, lawful unicode tables", "why_tests_cant": "It says for all properties of infinitely many strings whether some text of any length works for all symbol tables.", "anchors": ["hgpl/interpreting.py: Interpreter.evaluate", "hgpl/interpreting.py: Interpreter._evaluate_node"]}
{"id": "C168", "title": "All decisions on a float can be written", "statement": "Take the name of a user attribute and a property of binary64 numbers and the two infinities that does not tell 0.0 from -0.0. There is a policy for which evaluate returns TRUE or FALSE, according to the property, for every symbol table in which the attribute is of type float and has such a number as its value (not NaN). This includes the test for 0.0, although evaluation rejects the literal 0.0. Warnings are not raised.", "quantifier": "all attribute names, properties of floats, symbol tables, levels above WARN, lawful unicode tables with binary64 literals", "why_tests_cant": "It says for every property of nearly 2^64 floats that some text works for all symbol tables.", "anchors": ["hgpl/interpreting.py: Interpreter.evaluate", "hgpl/interpreting.py: Interpreter._evaluate_node"]}
{"id": "C169", "title": "Which decisions on a set of texts can be written", "statement": "Take the name of a user attribute, a finite list of non-empty strings made of printable ASCII characters other than quotes, and a property of sets of strings that depends only on which of the listed strings are in the set and on whether all its elements are listed. There is a policy for which evaluate returns TRUE or FALSE, according to the property, for every symbol table in which the attribute is of type set and has the set as its value. For a property for which there is no such list there is no such policy; so no policy tells whether a set of strings has more than one element. Warnings are not raised.", "quantifier": "all attribute names, lists, properties of sets of strings, symbol tables, levels above WARN, lawful unicode tables", "why_tests_cant": "It says for all properties of infinitely many sets that some text works for all symbol tables.", "anchors": ["hgpl/interpreting.py: Interpreter.evaluate", "hgpl/interpreting.py: Interpreter._evaluate_node"]}
{"id": "C170", "title": "Evaluation depends only on how values compare", "statement": "Take a policy and two symbol tables, and a relation between values that relates only values of the same sort (number, string, NULL, none, the same truth value, other objects equally hashable), under which equality and numeric order of any two values agree with those of the related values, and which relates each literal of the policy to itself. Let each attribute of the policy be missing in both tables or have the same type in both, with related single values, or with sets (or lists) in which each element of either is related to one of the other. Then evaluate records the same warnings for both tables, and returns the same truth value or raises the same exception, at every level. So a policy without literals over integer attributes decides the same after adding the same number to each, or any other strictly increasing change. And a policy without string literals over string attributes and sets of strings decides the same after renaming the strings so that different ones stay different.", "quantifier": "all policies, pairs of symbol tables, relations, warning levels, lawful unicode tables", "why_tests_cant": "It compares every two symbol tables under every relation between their values, for every policy.", "anchors": ["hgpl/interpreting.py: Interpreter.evaluate", "hgpl/interpreting.py: Interpreter._evaluate_node"]}
{"id": "C171", "title": "Which decisions on two numbers can be written", "statement": "Take the names of two user attributes that differ after conversion to lower case, and a property of pairs of integers, where the lexer does not limit the number of digits. There is a policy for which evaluate returns TRUE or FALSE, according to the property, for every symbol table in which the attributes are of type int and have the integers as their values, exactly if there is a bound N such that the property is the same for two pairs whenever their first numbers are the same, both at least N or both at most -N, their second numbers likewise, and the two pairs are in the same order (less, equal or greater). So no policy tells whether the second number is the first plus one. Warnings are not raised.", "quantifier": "all attribute names, properties of pairs of integers, symbol tables, levels above WARN, lawful unicode tables without a limit of digits", "why_tests_cant": "It says for all properties of infinitely many pairs whether some text of any length works for all symbol tables.", "anchors": ["hgpl/interpreting.py: Interpreter.evaluate", "hgpl/interpreting.py: Interpreter._evaluate_node"]}
{"id": "C172", "title": "Which decisions on two texts can be written", "statement": "Take the names of two user attributes that differ after conversion to lower case, and a property of pairs of strings. There is a policy for which evaluate returns TRUE or FALSE, according to the property, for every symbol table in which the attributes are of type string and have the strings as their values, exactly if there is a finite list of non-empty strings made of printable ASCII characters other than quotes such that the property depends only on whether the two strings are equal and on which string of the list each of them is, if any. So no policy tells whether one string starts with another. Warnings are not raised.", "quantifier": "all attribute names, properties of pairs of strings, symbol tables, levels above WARN, lawful unicode tables", "why_tests_cant": "It says for all properties of infinitely many pairs whether some text of any length works for all symbol tables.", "anchors": ["hgpl/interpreting.py: Interpreter.evaluate", "hgpl/interpreting.py: Interpreter._evaluate_node"]}
