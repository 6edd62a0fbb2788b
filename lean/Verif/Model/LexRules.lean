import Verif.Model.Regex
/-!
# The rules of the lexer

The grammar file is not in the repository; the rules are read off the
serialized ATN in kfgrammar/kuneiform_lexer.go:91-362, and
`Verif/Proof/LexCheck.lean` and `LexRun.lean` prove that running the decoded
array gives the tokens of exactly this table.
-/

namespace Verif

/-- One lexer rule: token type, expression, whether its loop is non-greedy,
whether the token goes to the hidden channel. -/
structure LexRule where
  ty : TT
  re : RE
  lazy : Bool := false
  hidden : Bool := false
  deriving DecidableEq, Repr, Inhabited

namespace Lx

/-- One given character. -/
def ch (c : Char) : RE := .cls false [(c.toNat, c.toNat)]

/-- A literal text. -/
def lit : List Char → RE
  | [] => .eps
  | [c] => ch c
  | c :: cs => .seq (ch c) (lit cs)

/-- A letter in either case, written in lower case here. -/
def ci (c : Char) : RE := .cls false [(c.toNat - 32, c.toNat - 32), (c.toNat, c.toNat)]

/-- A literal text in any mixture of cases. -/
def litCI : List Char → RE
  | [] => .eps
  | [c] => ci c
  | c :: cs => .seq (ci c) (litCI cs)

/-- One or more. -/
def plus (a : RE) : RE := .seq a (.star a)

/-- `[A-Za-z]` -/
def letter : RE := .cls false [(65, 90), (97, 122)]
/-- `[0-9A-Z_a-z]` -/
def identChar : RE := .cls false [(48, 57), (65, 90), (95, 95), (97, 122)]
/-- The body of rule `IDENTIFIER`. -/
def ident : RE := .seq letter (.star identChar)
/-- Rule fragment `WSNL`: tab, line feed, carriage return, space. -/
def wsnl : RE := .cls false [(9, 10), (13, 13), (32, 32)]
/-- Rule fragment `DIGIT`. -/
def digit : RE := .cls false [(48, 57)]
/-- Rule fragment `SINGLE_QUOTE_STRING_CHAR`: any character but line ends,
`'` and `\`, or a `\` followed by any character. -/
def stringChar : RE :=
  .alt (.cls true [(10, 10), (13, 13), (39, 39), (92, 92)]) (.seq (ch '\\') (.cls true []))
/-- Rule fragment `SINGLE_QUOTE_STRING`. -/
def string : RE := .seq (ch '\'') (.seq (.star stringChar) (ch '\''))
/-- Rule `SQL_KEYWORDS`. -/
def sqlKeywords : RE :=
  .alt (litCI "select".toList) (.alt (litCI "insert".toList) (.alt (litCI "update".toList)
    (.alt (litCI "delete".toList) (litCI "with".toList))))
/-- Rule `SQL_STMT`: an SQL keyword, white space, and everything up to the
next `;` or `}`. -/
def sqlStmt : RE :=
  .seq sqlKeywords (.seq (plus wsnl) (plus (.cls true [(59, 59), (125, 125)])))
/-- Rule `BLOCK_COMMENT`. -/
def blockComment : RE :=
  .seq (ch '/') (.seq (ch '*') (.seq (.star (.cls true [])) (.seq (ch '*') (ch '/'))))
/-- Rule `LINE_COMMENT`. -/
def lineComment : RE :=
  .seq (ch '/') (.seq (ch '/') (.star (.cls true [(10, 10), (13, 13)])))

end Lx

/-- Rules `COL` to `SQL_NOT_EQ2`, ATN rules 0-29. -/
def punctTable : List (TT × String) :=
  [(.COL, ":"), (.SCOL, ";"), (.L_PAREN, "("), (.L_BRACE, "{"), (.R_PAREN, ")"),
   (.R_BRACE, "}"), (.COMMA, ","), (.DOLLAR, "$"), (.HASH, "#"), (.AT, "@"), (.PERIOD, "."),
   (.ASSIGN, "="), (.PLUS, "+"), (.MINUS, "-"), (.STAR, "*"), (.DIV, "/"), (.MOD, "%"),
   (.TILDE, "~"), (.PIPE2, "||"), (.LT2, "<<"), (.GT2, ">>"), (.AMP, "&"), (.PIPE, "|"),
   (.EQ, "=="), (.LT, "<"), (.LT_EQ, "<="), (.GT, ">"), (.GT_EQ, ">="),
   (.SQL_NOT_EQ1, "!="), (.SQL_NOT_EQ2, "<>")]

/-- Rules `DATABASE_` to `ACTION_DO_RESTRICT_`, ATN rules 30-63. -/
def kwTable : List (TT × String) :=
  [(.DATABASE_, "database"), (.USE_, "use"), (.AS_, "as"), (.TABLE_, "table"),
   (.ACTION_, "action"), (.INIT_, "init"), (.PUBLIC_, "public"), (.PRIVATE_, "private"),
   (.VIEW_, "view"), (.OWNER_, "owner"), (.INT_, "int"), (.TEXT_, "text"), (.BLOB_, "blob"),
   (.MIN_, "min"), (.MAX_, "max"), (.MIN_LEN_, "minlen"), (.MAX_LEN_, "maxlen"),
   (.NOT_NULL_, "notnull"), (.PRIMARY_, "primary"), (.DEFAULT_, "default"),
   (.UNIQUE_, "unique"), (.INDEX_, "index"), (.FOREIGN_KEY_, "foreign_key"),
   (.FOREIGN_KEY_ABBR_, "fk"), (.REFERENCES_, "references"), (.REFERENCES_ABBR_, "ref"),
   (.ACTION_ON_UPDATE_, "on_update"), (.ACTION_ON_DELETE_, "on_delete"), (.ACTION_DO_, "do"),
   (.ACTION_DO_NO_ACTION_, "no_action"), (.ACTION_DO_CASCADE_, "cascade"),
   (.ACTION_DO_SET_NULL_, "set_null"), (.ACTION_DO_SET_DEFAULT_, "set_default"),
   (.ACTION_DO_RESTRICT_, "restrict")]

/-- Rules `SELECT_` to `WITH_`, ATN rules 64-68 (case-insensitive). -/
def sqlKwTable : List (TT × String) :=
  [(.SELECT_, "select"), (.INSERT_, "insert"), (.UPDATE_, "update"), (.DELETE_, "delete"),
   (.WITH_, "with")]

/-- Rules `NOT_`, `AND_`, `OR_`, ATN rules 69-71. -/
def opKwTable : List (TT × String) := [(.NOT_, "not"), (.AND_, "and"), (.OR_, "or")]

/-- All rules in the order of kfgrammar/kuneiform_lexer.go:91-362 (ATN). -/
def lexRules : List LexRule :=
  punctTable.map (fun p => { ty := p.1, re := Lx.lit p.2.toList }) ++
  kwTable.map (fun p => { ty := p.1, re := Lx.lit p.2.toList }) ++
  sqlKwTable.map (fun p => { ty := p.1, re := Lx.litCI p.2.toList }) ++
  opKwTable.map (fun p => { ty := p.1, re := Lx.lit p.2.toList }) ++
  [{ ty := .IDENTIFIER, re := Lx.ident },
   { ty := .INDEX_NAME, re := .seq (Lx.ch '#') Lx.ident },
   { ty := .PARAM_OR_VAR, re := .seq (Lx.ch '$') Lx.ident },
   { ty := .BLOCK_VAR_OR_ANNOTATION, re := .seq (Lx.ch '@') Lx.ident },
   { ty := .UNSIGNED_NUMBER_LITERAL, re := Lx.plus Lx.digit },
   { ty := .STRING_LITERAL, re := Lx.string },
   { ty := .SQL_KEYWORDS, re := Lx.sqlKeywords },
   { ty := .SQL_STMT, re := Lx.sqlStmt },
   { ty := .WS, re := .cls false [(9, 9), (32, 32)], hidden := true },
   { ty := .TERMINATOR, re := .cls false [(10, 10), (13, 13)], hidden := true },
   { ty := .BLOCK_COMMENT, re := Lx.blockComment, lazy := true, hidden := true },
   { ty := .LINE_COMMENT, re := Lx.lineComment, hidden := true }]

end Verif
