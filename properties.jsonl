{"id": "C01", "title": "No syntax error means the text is in the Kuneiform grammar", "statement": "If ParseKF reports no error for an input, then the input splits into tokens with no lexical error and the visible tokens form a sentence of the Kuneiform grammar that is encoded in the generated parser's serialized ATN.", "quantifier": "every input text (unbounded length, any characters), every behaviour of the external statement parsers", "why_tests_cant": "A test can only show particular sentences; that nothing outside the grammar slips through the LA(1)/adaptive-prediction decisions ranges over all token sequences.", "anchors": ["kfparser/parser.go:ParseKF", "kfgrammar/kuneiform_parser.go:Source_unit", "kfgrammar/kuneiform_parser.go:serializedATN"]}
{"id": "C02", "title": "Every sentence of the grammar is accepted by the syntax stage", "statement": "If an input tokenises without lexical error and its visible tokens are a sentence of the grammar, ParseKF never reports a syntax error for it.", "quantifier": "every input text (unbounded length, any characters)", "why_tests_cant": "Completeness of the parser's lookahead decisions (1- and 2-token, and operator precedence) must hold for all sentences, of every nesting depth.", "anchors": ["kfgrammar/kuneiform_parser.go:Table_decl,Column_def_list,Fn_name,fn_arg_expr", "kfparser/parser.go:ParseKF"]}
{"id": "C03", "title": "A text has at most one meaning", "statement": "For one input text, all grammatical readings of it produce the same schema: the grammar is unambiguous up to the shape of argument expressions, which the schema does not record.", "quantifier": "every input text (unbounded length, any characters) and every pair of parse trees of it", "why_tests_cant": "Ambiguity is a statement about all pairs of derivations.", "anchors": ["kfgrammar/kuneiform_parser.go", "kfparser/visitor.go"]}
{"id": "C04", "title": "Tokenisation is lossless and maximal-munch", "statement": "When no lexical error is reported, the texts of the tokens (visible and hidden) concatenated in order are exactly the input; every token is the longest prefix of the remaining input that any lexer rule matches (comments: the shortest), ties going to the earliest rule.", "quantifier": "every input text (unbounded length, any characters)", "why_tests_cant": "Must hold at every position of every text, for all 84 lexer rules at once.", "anchors": ["kfgrammar/kuneiform_lexer.go:serializedATN"]}
{"id": "C05", "title": "Layout between tokens does not matter", "statement": "For a text that tokenises, inserting blanks, newlines, block comments and newline-terminated line comments at a token boundary leaves the outcome of ParseKF unchanged: identical outcome if the text is grammatical; rejected before and after if it is not and no bare SQL verb and no '/' directly followed by '*' comes before the boundary. Boundaries directly after an SQL statement or a line comment, and comments directly after '/', are excluded, because there the inserted characters merge with the neighbouring token.", "quantifier": "every input, every token boundary, every inserted whitespace or comment", "why_tests_cant": "Infinite family of layouts of every program; interaction with maximal munch (SQL_STMT, '/') has to be excluded for all contexts.", "anchors": ["kfgrammar/kuneiform_lexer.go:WS,TERMINATOR,BLOCK_COMMENT,LINE_COMMENT", "kfparser/parser.go:ParseKF"]}
{"id": "C06", "title": "ParseKF computes exactly the denoted, valid schema", "statement": "ParseKF returns schema s without error if and only if the text is a layout of some Kuneiform program whose meaning (read off declaration by declaration) is s and s satisfies the documented static rules.", "quantifier": "every input text (unbounded length, any characters), every behaviour of the external statement parsers", "why_tests_cant": "Functional correctness of the composition lexer-parser-visitor-validator over all programs.", "anchors": ["kfparser/parser.go:ParseKF", "kfparser/visitor.go", "schema/validator.go"]}
{"id": "C07", "title": "Declarations are kept, in source order, init last", "statement": "The schema of an accepted text lists the extensions, tables, columns, attributes, indexes, foreign keys, keys, actions, annotations, parameters and statements exactly once each and in source order, whatever the interleaving of tables and actions; the init block, wherever written, is the last action.", "quantifier": "every program: any number and interleaving of declarations", "why_tests_cant": "Ordering and completeness under arbitrary interleavings and counts.", "anchors": ["kfparser/visitor.go:VisitSource_unit,VisitTable_decl,VisitAction_decl"]}
{"id": "C08", "title": "At most one init, with fixed signature", "statement": "A text with two or more init blocks is rejected with ErrMultiInit; an accepted text yields an action named \"init\" iff it has an init block, and that action is private, mutability update, without inputs, annotations or auxiliaries.", "quantifier": "every program", "why_tests_cant": "Ranges over all programs and positions of init blocks.", "anchors": ["kfparser/visitor.go:VisitSource_unit,VisitInit_decl", "schema/errors.go:ErrMultiInit"]}
{"id": "C09", "title": "Action modifiers decide visibility, mutability and ownership", "statement": "An accepted action is public iff its modifier list contains `public`, view iff it contains `view`, owner-only iff it contains `owner`, and private/update/unrestricted otherwise; any repeated visibility, mutability or auxiliary modifier, in any order, is rejected with the matching ErrAction*AlreadySet error.", "quantifier": "every modifier list (any length and order)", "why_tests_cant": "Modifier lists are unbounded sequences in any order.", "anchors": ["kfparser/visitor.go:VisitAction_attr_list,VisitAction_decl"]}
{"id": "C10", "title": "Top-level names are unique in accepted schemas", "statement": "If validation succeeds, extension names (alias, or name when the alias is empty), table names and action names are each pairwise distinct.", "quantifier": "every schema value", "why_tests_cant": "Any position and number of duplicates.", "anchors": ["schema/validator.go:VisitSchema"]}
{"id": "C11", "title": "Names inside a table are unique in accepted schemas", "statement": "If validation succeeds, in each table the column names and the index names together are pairwise distinct, and no column repeats an attribute type.", "quantifier": "every schema value", "why_tests_cant": "Any position and number of duplicates.", "anchors": ["schema/validator.go:VisitTable,VisitColumn"]}
{"id": "C12", "title": "Parameters, foreign-key events and receivers are unique", "statement": "If validation succeeds, the inputs of each action, the ON events of each foreign key, and the receiver variables of each extension call are pairwise distinct.", "quantifier": "every schema value", "why_tests_cant": "Any position and number of duplicates.", "anchors": ["schema/validator.go:VisitAction,VisitForeignKey,visitActions"]}
{"id": "C13", "title": "Indexes refer to columns of their table", "statement": "If validation succeeds, every column named by an index is a column declared in the same table.", "quantifier": "every schema value", "why_tests_cant": "Must hold for every index of every table; one test per shape cannot rule out a hole (there is one: names of indexes are accepted as columns).", "anchors": ["schema/validator.go:VisitTable,VisitIndex"]}
{"id": "C14", "title": "Foreign keys refer to existing tables and columns", "statement": "If validation succeeds, every foreign key's parent table is declared, its child keys are columns of the declaring table and its parent keys are columns of the parent table, wherever the tables are declared.", "quantifier": "every schema value", "why_tests_cant": "Forward, backward and self references in any order.", "anchors": ["schema/validator.go:VisitSchema,VisitForeignKey"]}
{"id": "C15", "title": "Length and range attributes fit the column type", "statement": "If validation succeeds, no int column has minlen/maxlen and no text column has min/max.", "quantifier": "every schema value", "why_tests_cant": "All attribute lists.", "anchors": ["schema/validator.go:VisitColumn"]}
{"id": "C16", "title": "Calls in action bodies resolve", "statement": "If validation succeeds, every action-call statement names a declared action and every extension-call statement names a declared extension alias (or un-aliased extension), regardless of declaration order.", "quantifier": "every schema value, every behaviour of the statement parser", "why_tests_cant": "All bodies, all call graphs including recursion and forward calls.", "anchors": ["schema/validator.go:visitActions"]}
{"id": "C17", "title": "Variables used in call arguments are defined", "statement": "If validation succeeds, every $variable used in the arguments of a call statement is a parameter of the action or was received by an earlier extension call of the same body, and every @variable is @caller.", "quantifier": "every schema value, every behaviour of the statement parser", "why_tests_cant": "Depends on the whole history of statements of the body (and fails for variables nested inside larger argument expressions).", "anchors": ["schema/validator.go:checkArgRef,visitActions"]}
{"id": "C18", "title": "Valid schemas are never rejected", "statement": "A schema that satisfies all the static rules (unique names, resolvable references, attribute compatibility, defined variables, statements the external parsers accept) passes validation.", "quantifier": "every schema value, every behaviour of the statement parsers", "why_tests_cant": "Absence of spurious rejections over all valid schemas.", "anchors": ["schema/validator.go:VisitSchema"]}
{"id": "C19", "title": "Validation errors are truthful", "statement": "When validation fails, the error's kind and the name it quotes identify a defect that is really present in the schema (for instance `duplicate table: t` means two tables are named t).", "quantifier": "every rejected schema", "why_tests_cant": "Every error path for every schema.", "anchors": ["schema/validator.go", "schema/errors.go"]}
{"id": "C20", "title": "ParseKF is total and its result discipline holds", "statement": "ParseKF returns normally on every input, also when the visitor or an external parser panics; with no error the result is a schema, after a syntax or visitor error the result is nil, and after a validation error it is the offending schema together with an error.", "quantifier": "every input text (unbounded length, any characters), any panic behaviour of external parsers", "why_tests_cant": "All panic points and all error paths.", "anchors": ["kfparser/parser.go:ParseKF"]}
{"id": "C21", "title": "No internal crash on grammatical input", "statement": "For syntactically valid input the only failures before validation are the documented ones (ErrMultiInit and the three ErrAction*AlreadySet); nil dereferences, out-of-range slices, failed type assertions and ErrNotSupportColumnType never happen.", "quantifier": "every input text (unbounded length, any characters)", "why_tests_cant": "Every optional sub-tree combination of every program.", "anchors": ["kfparser/visitor.go"]}
{"id": "C22", "title": "Error list protocol", "statement": "The error ParseKF returns unwraps to the first recorded error (so errors.Is works on its kind), it is nil exactly when nothing was recorded, its message starts with the first error's message, and the error count it prints is the number of further errors found.", "quantifier": "every input text (unbounded length, any characters) and every initial content of the error listener", "why_tests_cant": "The list is mutated by the deferred handler on every path (the count is in fact off by one because the list is appended to itself).", "anchors": ["utils/error_listener.go", "kfparser/parser.go:ParseKF"]}
{"id": "C23", "title": "A used error listener keeps failing", "statement": "ParseKF called with a listener that already holds errors fails with the listener's earliest error, whatever the input, and never drops recorded errors.", "quantifier": "every input and every listener history", "why_tests_cant": "Histories of listener use are unbounded.", "anchors": ["kfparser/parser.go:ParseKF", "utils/error_listener.go"]}
{"id": "C24", "title": "Parses are independent of each other and of the trace mode", "statement": "With a nil listener the outcome depends only on the input and the external parsers: any sequence of earlier calls, and the Trace mode bit, leave schema and error unchanged.", "quantifier": "every sequence of calls and modes", "why_tests_cant": "All histories of calls.", "anchors": ["kfparser/parser.go:ParseKF", "kfparser/visitor.go:NewKuneiformVisitor", "schema/validator.go:NewCtxValidator"]}
{"id": "C25", "title": "SQL statements are kept verbatim and cannot swallow the rest of the file", "statement": "Each SQL statement of an accepted schema is character for character a contiguous piece of the source that starts with select/insert/update/delete/with (any case) and whitespace, ends with its only `;`, and contains no `}`.", "quantifier": "every input text (unbounded length, any characters)", "why_tests_cant": "All statement texts, including quotes and comments containing ; or }.", "anchors": ["kfgrammar/kuneiform_lexer.go:SQL_STMT", "kfparser/visitor.go:VisitAction_stmt"]}
{"id": "C26", "title": "Call statements are kept token for token", "statement": "Each call statement of an accepted schema is the concatenation of its source tokens with whitespace and comments removed; no blank, newline or comment survives outside string literals, and the final character is `;`.", "quantifier": "every input text (unbounded length, any characters)", "why_tests_cant": "All argument expressions.", "anchors": ["kfparser/visitor.go:VisitAction_stmt"]}
{"id": "C27", "title": "The text of a stored call statement means what was written", "statement": "Tokenising the stored text of a call statement gives back the tokens that were written in the source.", "quantifier": "every accepted call statement", "why_tests_cant": "All adjacent token pairs in unbounded expressions (fails when not/and/or or names become adjacent).", "anchors": ["kfparser/visitor.go:VisitAction_stmt", "kfgrammar/kuneiform_lexer.go"]}
{"id": "C28", "title": "Names in accepted schemas are well formed and unreserved", "statement": "Database, extension, table, column and action names (other than init) are a letter followed by letters, digits or underscores and are not reserved words; index names are stored without `#`, inputs keep their `$`, annotations are stored without `@`.", "quantifier": "every input text (unbounded length, any characters)", "why_tests_cant": "All names of all programs.", "anchors": ["kfparser/visitor.go", "kfgrammar/kuneiform_lexer.go:IDENTIFIER"]}
{"id": "C29", "title": "Annotations survive to their consumer", "statement": "For every annotation in an accepted schema, ParseAnnotation of the stored string returns the target and the attribute names and literal values that were written, in order.", "quantifier": "every annotation of every accepted program", "why_tests_cant": "All attribute lists and string literals (fails for string literals with escaped quotes or escaped newlines).", "anchors": ["utils/annotation.go:ParseAnnotation", "kfparser/visitor.go:VisitAnnotation_decl"]}
{"id": "C30", "title": "ParseAnnotation is total and well-typed", "statement": "ParseAnnotation never panics; it fails exactly for strings shorter than 3 bytes, without `(`, or not ending in `)`; every attribute it returns has a non-empty word name and a value that is a digit string or a single-quoted string, and all are disjoint pieces of the input in order.", "quantifier": "every string", "why_tests_cant": "All strings, including those not produced by the parser.", "anchors": ["utils/annotation.go:ParseAnnotation"]}
{"id": "C31", "title": "JSON output is valid and faithful", "statement": "ToJSON of a parsed schema never fails, is well-formed JSON, and decoding it gives back the same schema.", "quantifier": "every schema value", "why_tests_cant": "All strings with quotes, control characters, HTML characters, line separators; all nestings of optional lists.", "anchors": ["schema/schema.go:ToJSON,astMarshal"]}
{"id": "C32", "title": "Different schemas have different JSON", "statement": "Two schemas whose ToJSON outputs are equal are equal (up to empty versus missing lists that JSON omits).", "quantifier": "every pair of schemas", "why_tests_cant": "Quantifies over pairs.", "anchors": ["schema/schema.go:ToJSON"]}
{"id": "C33", "title": "JSON output is escape-safe", "statement": "ToJSON output contains no raw control characters inside strings, no `<`, `>`, `&`, U+2028 or U+2029 at all, so it can be embedded in HTML/JS; string contents cannot terminate a JSON string.", "quantifier": "every schema value", "why_tests_cant": "All strings.", "anchors": ["schema/schema.go:astMarshal"]}
{"id": "C34", "title": "JSON shape conventions", "statement": "In ToJSON output of a parsed schema, owner and name are always present, empty tables/actions/extensions/indexes/foreign_keys/attributes/annotations are omitted, and absent config/inputs/auxiliaries/foreign-key actions are null, never [].", "quantifier": "every accepted program", "why_tests_cant": "All combinations of optional parts.", "anchors": ["schema/schema.go", "kfparser/visitor.go"]}
{"id": "C35", "title": "The CLI touches no output file unless parsing succeeded", "statement": "If the command exits with a non-zero code because of arguments, reading or parsing, no file's content has changed (only the output directory may have been created), and the exit code identifies the failing stage.", "quantifier": "every file system state, flags and input", "why_tests_cant": "All failure points.", "anchors": ["cmd/root.go:rootCmd"]}
{"id": "C36", "title": "After a successful run the output file is exactly the JSON", "statement": "When the command reports success, the output file's content is exactly the ToJSON bytes.", "quantifier": "every previous content of the output path and every outcome of the write calls", "why_tests_cant": "All previous file contents (fails when an older, longer file exists: the file is not truncated).", "anchors": ["cmd/root.go:writeToFile"]}
{"id": "C37", "title": "Failed writes are reported", "statement": "If writing the output file fails, the command exits with CodeErrWriteFile and does not print success.", "quantifier": "every outcome of open, write and close", "why_tests_cant": "All error combinations (fails: the deferred Close overwrites the write error).", "anchors": ["cmd/root.go:writeToFile"]}
{"id": "C38", "title": "The output path is <output dir>/<file stem>.json", "statement": "For every path argument the output is a file directly inside the output directory whose name is the argument's base name with its last extension replaced by .json; no path argument can escape the directory (the output directory is named as the user wrote it; '..' in it is resolved lexically, which differs from the file system's reading only across symbolic links).", "quantifier": "every path argument and output directory", "why_tests_cant": "All path strings, including dots and slashes.", "anchors": ["cmd/root.go:rootCmd"]}
{"id": "C39", "title": "The trace flag turns tracing on", "statement": "Running the command with --trace parses in Trace mode.", "quantifier": "every flag combination", "why_tests_cant": "All flag combinations (fails: the flag is not bound to the variable that is read).", "anchors": ["cmd/root.go:init,rootCmd"]}
{"id": "C40", "title": "The WASM entry point reports exactly one of JSON or error", "statement": "parseKuneiform called with one argument returns an object whose json is the schema's JSON and has no error key if parsing succeeds, and an empty json with an error message otherwise; other argument counts return a string.", "quantifier": "every argument list and input", "why_tests_cant": "All inputs.", "anchors": ["wasm/wasm.go:parse,parseWrapper"]}
{"id": "C41", "title": "Type-name lookups are case-insensitive and exact", "statement": "GetColumnType, GetAttributeType and GetIndexType succeed exactly on the strings whose Unicode lower case is a documented name and return the corresponding constant, and fail on every other string; for ASCII strings that is: the documented names in any letter case (beyond ASCII, only U+0130 counts as i and U+212A as k).", "quantifier": "every string", "why_tests_cant": "All strings, all case variants.", "anchors": ["schema/types.go:GetColumnType,GetAttributeType,GetIndexType"]}
{"id": "C42", "title": "Foreign-key spelling variants are equivalent", "statement": "fk/foreign_key, ref/references, the optional `do`, and trailing commas do not change the schema, and each on_*/action keyword yields the documented constant.", "quantifier": "every program and every choice of spelling at every position", "why_tests_cant": "All combinations of spellings.", "anchors": ["kfparser/visitor.go:VisitForeign_key_def,VisitForeign_key_action"]}
{"id": "C43", "title": "Canonical source round trip", "statement": "For every schema that satisfies the lexical and static rules there is a canonical source text (one blank after each token), and ParseKF of it returns exactly that schema; no other schema is ever returned; and every program that can be written at all can be written in the canonical layout without changing the outcome.", "quantifier": "every valid schema", "why_tests_cant": "Round trip over all schemas.", "anchors": ["kfparser/parser.go:ParseKF"]}
{"id": "C44", "title": "Keywords are reserved, lower case; SQL verbs in any case", "statement": "A word is a keyword token iff it is spelled exactly in lower case (SQL verbs: any case); every other word made of a letter and then letters, digits, underscores is an identifier.", "quantifier": "every word and every following text", "why_tests_cant": "All words.", "anchors": ["kfgrammar/kuneiform_lexer.go"]}
{"id": "C45", "title": "Comma-separated parameter and argument lists have no missing elements", "statement": "In an accepted text, parameter lists and argument lists never contain an empty element.", "quantifier": "every program", "why_tests_cant": "All list shapes (fails: a leading comma is accepted).", "anchors": ["kfgrammar/kuneiform_parser.go:Param_list,Fn_arg_list"]}
{"id": "C46", "title": "A validator instance is single-use", "statement": "Running the same ContextValidator twice on a schema with at least one extension, table or action reports a duplicate the second time.", "quantifier": "every non-empty schema and every earlier validation on the instance", "why_tests_cant": "All histories of the validator.", "anchors": ["schema/validator.go:ContextValidator"]}
{"id": "C47", "title": "Malformed UTF-8 is contained", "statement": "ParseKF decodes arbitrary bytes without crashing; every maximal invalid byte becomes U+FFFD, which can occur only inside comments, string literals and SQL statements of an accepted text. Input whose first byte is not ASCII (a byte order mark) is rejected.", "quantifier": "every byte string", "why_tests_cant": "All byte strings.", "anchors": ["kfparser/parser.go:ParseKF"]}
{"id": "C48", "title": "Error messages are true statements in documented words", "statement": "Every failing ParseKF returns an error with a message; if the text is not in the language it starts with `syntax error: line L:C MSG` of the first report of the parser, otherwise it names a mistake the text really has, in fixed words (for example `duplicate table: NAME`, with NAME declared twice), or is the message of an external parser about a statement of the text; and errors.Is with one of the package's sentinels succeeds only if the text has the mistake that the sentinel stands for.", "quantifier": "every text, parse mode and behaviour of the external parsers", "why_tests_cant": "All texts and all kinds of mistake at all positions.", "anchors": ["schema/errors.go", "schema/validator.go:ContextValidator", "kfparser/visitor.go", "utils/error_listener.go:ErrorList"]}
{"id": "C49", "title": "The command line is read as documented", "statement": "The command reads its arguments as a sequence of items: file arguments, `--trace/--version/--help` (optionally `=` a truth word), groups of their letters, `-o DIR`, `-oDIR`, `-o=DIR`, `--output DIR`, `--output=DIR`, and `--`, after which everything is an argument. Later items override earlier ones, the default output directory is `./build`, every argument vector has at most one meaning, help and version win and have no effects, anything but one file argument exits with 2, and an unreadable command line exits with 1 without effects.", "quantifier": "every argument vector", "why_tests_cant": "All argument vectors.", "anchors": ["cmd/root.go:init,rootCmd,Execute", "main.go:main"]}
{"id": "C50", "title": "Layout of the JSON output", "statement": "ToJSON writes one item per line, two blanks of indentation per level, commas at line ends, `\"key\": value`, `[]`/`{}` for empty ones, no final line break, and strings with the short escapes, lower-case \\u escapes for other control characters, <, >, &, U+2028 and U+2029, and all other characters as they are; so the output text is a function of the value it encodes.", "quantifier": "every schema node and every string in it", "why_tests_cant": "All schemas and strings.", "anchors": ["schema/schema.go:ToJSON,astMarshal"]}
{"id": "C51", "title": "Trace mode prints exactly the visits", "statement": "In trace mode ParseKF prints, for a text in the language and a fresh listener, one line per visited node in visiting order with the kind and the text of the node, and then one line with the returned error or <nil>; otherwise only that last line.", "quantifier": "every text, mode and listener", "why_tests_cant": "All texts.", "anchors": ["kfparser/visitor.go:Visit", "kfparser/parser.go:ParseKF"]}
{"id": "C52", "title": "Concurrent calls do not interfere", "statement": "If several ParseKF calls run at the same time, a call that does not share its error listener with another one returns the result and the error, leaves the errors in its listener and prints the lines that it would by itself, whatever the others do; no call waits for another one; and if calls do share a listener, a nil error still means that the text is accepted by itself, with that schema, and no report is lost.", "quantifier": "every set of calls, listeners and schedule of their steps", "why_tests_cant": "All interleavings of all calls.", "anchors": ["kfparser/parser.go:ParseKF", "utils/error_listener.go:ErrorList"]}
{"id": "C53", "title": "Interrupted runs of the command", "statement": "If the command is killed at any moment, every file is as before, except possibly the output file of a run whose input was read and accepted, which then starts with a beginning of the JSON, followed by what was in the file before; running the same command again to its end gives the files that an uninterrupted run gives.", "quantifier": "every crash point of every run, every file system state", "why_tests_cant": "All crash points, including inside the write.", "anchors": ["cmd/root.go:rootCmd,writeToFile"]}
{"id": "C54", "title": "Forms of statements", "statement": "Every statement of an accepted schema is a single SELECT, INSERT, UPDATE, DELETE or WITH statement (in any letter case), a call of an action or an extension method, or an assignment of such a call to variables; no CREATE, DROP or other SQL is ever let through, whatever the external SQL parser would say.", "quantifier": "every accepted text", "why_tests_cant": "All texts.", "anchors": ["kfgrammar/kuneiform_lexer.go", "kfparser/visitor.go:VisitAction_stmt", "docs/syntax.md"]}
{"id": "C55", "title": "The order of declarations does not matter", "statement": "If two texts contain the same declarations in a different order (extensions, tables, actions and init, and inside them columns, indexes, foreign keys, constraints, parameters, modifiers, annotations and configuration entries), one is accepted if and only if the other is.", "quantifier": "every text and every reordering of it", "why_tests_cant": "All permutations (fails: an index may list the name of an earlier index).", "anchors": ["schema/validator.go:VisitSchema,VisitTable,VisitAction"]}
{"id": "C56", "title": "The command never changes its input", "statement": "A run of the command leaves the file it was given as input as it was.", "quantifier": "every command line, file system state and outcome of system calls", "why_tests_cant": "All command lines and file systems (fails: with `-o .` a file x.json is overwritten by its own output).", "anchors": ["cmd/root.go:rootCmd,writeToFile"]}
{"id": "C57", "title": "Accept on the parts of a schema", "statement": "Accept of a table, column, attribute, index, foreign key, action or extension on a validator, in any state, returns nil exactly if that part keeps its rules (an index and a foreign key with respect to what the validator has seen), errors describe a mistake in the part, and it does not panic unless an external parser does.", "quantifier": "every node, validator state and history of earlier Accept calls", "why_tests_cant": "All histories (fails: Accept of an extension panics).", "anchors": ["schema/schema.go:Accept", "schema/validator.go:VisitTable,VisitColumn,VisitIndex,VisitForeignKey,VisitAction,VisitExtension"]}
{"id": "C58", "title": "The first problem is reported", "statement": "Validation, and ParseKF for a text whose declarations can be read, fails with the complaint about the first broken rule in a fixed reading order (extensions; tables with their columns, attributes and indexes; headers of actions; foreign keys; statements), with exactly one error, and never about a later one.", "quantifier": "every schema, text and behaviour of the external parsers", "why_tests_cant": "All schemas with any number of mistakes at any positions.", "anchors": ["schema/validator.go:VisitSchema", "kfparser/parser.go:ParseKF"]}
{"id": "C59", "title": "Adding and removing declarations", "statement": "If a table, action, init or extension is added at any place to an accepted text, the new text is accepted exactly if the declared name is new and the declaration itself keeps the rules; the schema is the old one with the declaration in its place. A declaration that nothing refers to can be removed from an accepted text.", "quantifier": "every accepted text and every declaration", "why_tests_cant": "All pairs of texts that differ by a declaration.", "anchors": ["schema/validator.go:VisitSchema", "kfparser/visitor.go"]}
{"id": "C60", "title": "The generated parser and its tables agree", "statement": "The generated rule functions of the parser and the ATN tables that they hand to the ANTLR runtime implement the same language: run on the tokens of any text, with any prediction service that answers right on those tables where the next two tokens are enough to tell, the functions come to an end, build the parse tree of the whole text if it is in the grammar, and report an error if it is not; no guard, bit mask, case number, state number or precedence in the generated code disagrees with the tables.", "quantifier": "every text, every behaviour of the prediction service within its contract", "why_tests_cant": "All token sequences and all prediction services.", "anchors": ["kfgrammar/kuneiform_parser.go", "kfparser/parser.go:ParseKF"]}
{"id": "C61", "title": "Declarations make sense", "statement": "In an accepted schema, a table has at most one primary key, a default value fits the type of its column, no minimum is above its maximum, an index lists no column twice, and a foreign key has as many columns as it refers to.", "quantifier": "every accepted text", "why_tests_cant": "All texts (fails: none of this is checked; the verdict never depends on the values of literals).", "anchors": ["schema/validator.go:VisitTable,VisitColumn,VisitIndex,VisitForeignKey"]}
{"id": "C62", "title": "SQL statements fit the schema", "statement": "SQL statements of an accepted schema use only declared tables and columns and defined parameters.", "quantifier": "every accepted text", "why_tests_cant": "All texts (fails: an SQL statement is judged by itself, the same everywhere).", "anchors": ["schema/validator.go:visitActions"]}
{"id": "C63", "title": "Block variables as arguments", "statement": "The documented block variables @caller and @block_height may be used as arguments of calls.", "quantifier": "every call of every text", "why_tests_cant": "All texts (fails: @block_height is rejected).", "anchors": ["schema/validator.go:checkArgRef", "docs/syntax.md"]}
{"id": "C64", "title": "The documented syntax is accepted", "statement": "A text of the form documented in docs/syntax.md (database name; tables with columns and indexes in any order; actions with parameters and SQL), in any layout, that describes a schema which keeps the rules is accepted and read as that schema.", "quantifier": "every text of the documented form, any layout", "why_tests_cant": "All texts (fails: an index above a column is a syntax error).", "anchors": ["docs/syntax.md", "kfparser/parser.go:ParseKF", "kfgrammar/kuneiform_parser.go"]}
{"id": "C65", "title": "Names are only names", "statement": "If tables, columns and indexes of a text get other names throughout (different names staying different), the new text is accepted if and only if the old one was, and is read as the old schema with the new names.", "quantifier": "every text and every injective choice of names", "why_tests_cant": "All texts and all renamings.", "anchors": ["schema/validator.go:VisitSchema,VisitTable", "kfparser/visitor.go"]}
{"id": "C66", "title": "The lexer tables", "statement": "ANTLR's lexer algorithm (configurations, closure, longest accepting state, order of rules, non-greedy loops, channel actions), run on the tables in the generated lexer, finds at every position exactly the token of the maximal-munch rule over the 84 token rules: type, text and channel; it reports an error exactly where no rule matches, and always comes to an end.", "quantifier": "every text", "why_tests_cant": "All texts of any length (the tables have 615 states).", "anchors": ["kfgrammar/kuneiform_lexer.go", "kfparser/parser.go:ParseKF"]}
{"id": "C67", "title": "Prediction on the parser tables", "statement": "ANTLR's prediction algorithm (configurations, closure, precedence filter, predicates, give-up rule), run on the tables in the generated parser for the five decisions that the generated code leaves to it, never needs more than two tokens, never meets a conflict and never looks at the calling rules; it answers the first alternative that can consume the remaining tokens whenever there is one. So lexer tables, generated code and parser tables together give exactly the parse trees of the grammar.", "quantifier": "every token sequence, precedence and chain of rule calls; every text", "why_tests_cant": "All token sequences of any length and all call chains.", "anchors": ["kfgrammar/kuneiform_parser.go", "kfgrammar/kuneiform_lexer.go", "kfparser/parser.go:ParseKF"]}
{"id": "C68", "title": "The first syntax error names the first offending place", "statement": "If a text has syntax errors, the first error in the returned list is `syntax error: line L:C ...` with the line and column of the first token with which no correct text goes on (everything before it does start a correct text), of the end of the text if that comes too early, or of the characters that are no token if everything before them is right.", "quantifier": "every text with a syntax error", "why_tests_cant": "All texts, of any length, with any number of errors anywhere.", "anchors": ["kfparser/parser.go:ParseKF", "utils/error_listener.go:SyntaxError", "kfgrammar/kuneiform_parser.go"]}
{"id": "C69", "title": "Texts with syntax errors: parsing ends, with boundedly many located errors", "statement": "After a syntax error the parser goes on and looks for more. Whatever token sets its error strategy works with, it comes to an end (in a number of steps linear in the number of tokens); it reports an error if and only if the text is no sentence, at most one per token and one more; the error list that Parse returns for a text of n characters has at most 2n+2 entries, each but the last naming a place in the text, and the first of them the first offending token.", "quantifier": "every text, every error strategy", "why_tests_cant": "All texts with any number of errors, and all ways the runtime's recovery may choose its token sets.", "anchors": ["kfparser/parser.go:ParseKF", "kfgrammar/kuneiform_parser.go", "utils/error_listener.go:SyntaxError"]}
{"id": "C70", "title": "Files that break off", "statement": "If ParseKF is given only the first bytes of a file that it accepts (the writer was interrupted, the copy is incomplete), wherever they end, even inside a character, it reports an error or returns a schema with the same database name whose extensions, tables and actions are the first ones of the whole file's schema, each complete and unchanged: a declaration is never half read and none gets another meaning. Breaking off goes unnoticed only between declarations (and there it can).", "quantifier": "every accepted file and every length it can be cut to", "why_tests_cant": "All files and all cut points: inside tokens, strings, comments, statements and characters.", "anchors": ["kfparser/parser.go:ParseKF", "kfgrammar/kuneiform_lexer.go", "kfgrammar/kuneiform_parser.go"]}
{"id": "C71", "title": "Every SQL statement can be used", "statement": "Every SQL statement that starts with select, insert, update, delete or with and that the SQL parsers accept can be written as a statement of an action and arrives in the schema unchanged.", "quantifier": "every SQL statement and every behaviour of the SQL parsers", "why_tests_cant": "All statements and all texts (fails: a statement with a semicolon or a closing brace inside a string can be used in no text).", "anchors": ["kfgrammar/kuneiform_lexer.go", "kfgrammar/kuneiform_parser.go", "schema/validator.go:visitActions"]}
{"id": "C72", "title": "The parse tree API", "statement": "Every lookup method of every generated context type (X(), X(i), AllX(), tokens alike) returns, for any children and any index, exactly the children its name says, in order, nil outside the range, and never panics; no child of a parse tree is out of reach; type tests never confuse two rules; and KFVisitor.Visit, which finds methods at run time and asserts the types of results, returns for every text of the language its schema or the error of the broken rule, without a failed assertion.", "quantifier": "every context type, every method, every list of children, every index; every text", "why_tests_cant": "All children lists and indexes, and all trees of any size.", "anchors": ["kfgrammar/kuneiform_parser.go", "kfgrammar/kuneiformparser_visitor.go", "kfgrammar/kuneiformparser_base_visitor.go", "kfparser/visitor.go:Visit"]}
{"id": "C73", "title": "Line ends", "statement": "A file that Parse accepts is still accepted when its line ends are converted from those of Unix to those of Windows (as an editor or a version control system does), and the schema stays the same but for the line ends inside statements.", "quantifier": "every accepted file and every behaviour of the SQL parsers that does not mind line ends", "why_tests_cant": "All files (fails: a line end after a backslash in a string).", "anchors": ["kfgrammar/kuneiform_lexer.go", "kfparser/parser.go:ParseKF", "kfparser/visitor.go"]}
{"id": "C74", "title": "Several files, one output directory", "statement": "If the command is run on several files one after the other with the same output directory and each run reports success, then afterwards the JSON of each of the files is in the output directory.", "quantifier": "every list of calls of the command, every file system and every answer of the system calls", "why_tests_cant": "All numbers of calls, all file names and contents (fails: files with the same name in different directories, or with the same name but for the extension, share one output file).", "anchors": ["cmd/root.go:Run,writeToFile", "main.go:main"]}
{"id": "C75", "title": "Expected tokens in error messages", "statement": "If the first syntax error says what was expected (`mismatched input ... expecting ...`, `extraneous input ... expecting ...`, `missing ... at ...`), the set of expected tokens is not empty (listing an empty set would panic), after each of the listed tokens some correct text goes on from this place, and the token that is there is not listed.  The names in the list are unambiguous, and a name in quotes is exactly what to write.", "quantifier": "every text with a syntax error", "why_tests_cant": "All texts of any length, with the first error anywhere.", "anchors": ["kfgrammar/kuneiform_parser.go", "kfgrammar/kuneiform_lexer.go", "utils/error_listener.go:SyntaxError", "kfparser/parser.go:ParseKF"]}
{"id": "C76", "title": "The command and the web version agree", "statement": "For the same text, the command rejects a file exactly if the web version reports an error, with the same error text; otherwise the JSON that the web version returns is the JSON that the command writes into a new output file.", "quantifier": "every file content, every command line that asks for a run on it, every file system in which it can be read", "why_tests_cant": "All contents: two separate entry points have to agree on each.", "anchors": ["cmd/root.go:Run,writeToFile", "wasm/wasm.go:parse,parseWrapper", "kfparser/parser.go:ParseKF"]}
{"id": "C77", "title": "Commenting out a declaration", "statement": "Every declaration of a file is a contiguous part of its text. If that part is put into a block comment (and `*/` does not occur in it), or if `//` is put before each of its lines (it ends with its line and has no carriage returns), or if it is replaced by any layout, then the file says exactly what the file without the declaration says; Parse returns the schema without it, and no error, if the file was accepted and nothing else in it refers to the declaration.", "quantifier": "for every file, every declaration in it (tables, actions, init, extensions), every layout of the file and every text inside the declaration", "why_tests_cant": "Whether a comment ends where the user thinks depends on everything the declaration contains (strings, SQL, other comments), and tests try a few; the claim is for all of them.", "anchors": ["kfgrammar/kuneiform_lexer.go: kuneiformlexerLexerInit", "kfparser/parser.go: ParseKF"]}
{"id": "C78", "title": "Joining two files", "statement": "If the text of a second file, without its first line `database name;`, is put after a first file (with any layout between them, the last line of the first file having no `//`; extensions still before declarations), the text says what both files say, under the name of the first. If both files are accepted, the joined one is accepted exactly if no table, action or extension name is declared in both (two init blocks count as two actions called init); its schema then has the tables, extensions and actions of both.", "quantifier": "for all pairs of files with any layout, and all behaviours of the SQL and action parsers", "why_tests_cant": "The claim is about all pairs of accepted files: that neither the lexer at the seam nor any rule of the validator ties the two parts together cannot be found out from samples.", "anchors": ["kfgrammar/kuneiform_lexer.go: kuneiformlexerLexerInit", "kfparser/parser.go: ParseKF", "schema/validator.go: Validate"]}
{"id": "C79", "title": "A missing or extra bracket is always noticed", "statement": "In every file without syntax error the brackets ( ) { } are properly nested. If in such a file one bracket is replaced by a blank (or other layout beginning with a blank), Parse reports an error; the same if one more bracket, with blanks around it, is put between any two tokens (not after the text of an SQL statement, to which it would belong).", "quantifier": "for every file without syntax error, every bracket in it, every place between its tokens, and all behaviours of the SQL and action parsers", "why_tests_cant": "A test breaks a few files at a few places; the claim is for every place of every file, and needs that no rule of the grammar and no token of the lexer makes up for the bracket.", "anchors": ["kfgrammar/kuneiform_parser.go: Source_unit", "kfgrammar/kuneiform_lexer.go: kuneiformlexerLexerInit", "kfparser/parser.go: ParseKF"]}
{"id": "C80", "title": "A missing or extra semicolon is noticed, except after SQL", "statement": "If in a file without syntax error a semicolon that does not end an SQL statement is replaced by a blank (or other layout beginning with a blank), Parse reports an error; the same if one more semicolon, with blanks around it, is put between any two tokens of which the first is not an SQL statement. (After an SQL statement a missing semicolon joins it with what follows, which only the SQL parser can notice.)", "quantifier": "for every file without syntax error, every such semicolon, every place between its tokens, and all behaviours of the SQL and action parsers", "why_tests_cant": "The claim is for every place of every file: no combination of neighbours may make the semicolon optional. Tests try a few places.", "anchors": ["kfgrammar/kuneiform_parser.go: Source_unit", "kfgrammar/kuneiform_lexer.go: kuneiformlexerLexerInit", "kfparser/parser.go: ParseKF"]}
