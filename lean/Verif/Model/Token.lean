/-!
# Tokens

Model of the token vocabulary of the Kuneiform lexer.
-/

namespace Verif

/-- Text.  Go strings reaching the lexer are decoded to runes first
(`antlr.NewInputStream`, called at kfparser/parser.go:24), so a text is a list
of Unicode scalar values. -/
abbrev Str := List Char

/-- Token types, kfgrammar/kuneiform_lexer.go:401-486 (constants
`KuneiformLexer*`), in the order of their numbers; `EOF` is
`antlr.TokenEOF`. -/
inductive TT where
  | EOF
  | COL
  | SCOL
  | L_PAREN
  | L_BRACE
  | R_PAREN
  | R_BRACE
  | COMMA
  | DOLLAR
  | HASH
  | AT
  | PERIOD
  | ASSIGN
  | PLUS
  | MINUS
  | STAR
  | DIV
  | MOD
  | TILDE
  | PIPE2
  | LT2
  | GT2
  | AMP
  | PIPE
  | EQ
  | LT
  | LT_EQ
  | GT
  | GT_EQ
  | SQL_NOT_EQ1
  | SQL_NOT_EQ2
  | DATABASE_
  | USE_
  | AS_
  | TABLE_
  | ACTION_
  | INIT_
  | PUBLIC_
  | PRIVATE_
  | VIEW_
  | OWNER_
  | INT_
  | TEXT_
  | BLOB_
  | MIN_
  | MAX_
  | MIN_LEN_
  | MAX_LEN_
  | NOT_NULL_
  | PRIMARY_
  | DEFAULT_
  | UNIQUE_
  | INDEX_
  | FOREIGN_KEY_
  | FOREIGN_KEY_ABBR_
  | REFERENCES_
  | REFERENCES_ABBR_
  | ACTION_ON_UPDATE_
  | ACTION_ON_DELETE_
  | ACTION_DO_
  | ACTION_DO_NO_ACTION_
  | ACTION_DO_CASCADE_
  | ACTION_DO_SET_NULL_
  | ACTION_DO_SET_DEFAULT_
  | ACTION_DO_RESTRICT_
  | SELECT_
  | INSERT_
  | UPDATE_
  | DELETE_
  | WITH_
  | NOT_
  | AND_
  | OR_
  | IDENTIFIER
  | INDEX_NAME
  | PARAM_OR_VAR
  | BLOCK_VAR_OR_ANNOTATION
  | UNSIGNED_NUMBER_LITERAL
  | STRING_LITERAL
  | SQL_KEYWORDS
  | SQL_STMT
  | WS
  | TERMINATOR
  | BLOCK_COMMENT
  | LINE_COMMENT
  deriving DecidableEq, Repr, Inhabited

/-- Numeric token type, kfgrammar/kuneiform_lexer.go:401-486.  `EOF` is -1 in
the runtime; the model uses 0, which is no token type. -/
def TT.code : TT → Nat
  | .EOF => 0
  | .COL => 1
  | .SCOL => 2
  | .L_PAREN => 3
  | .L_BRACE => 4
  | .R_PAREN => 5
  | .R_BRACE => 6
  | .COMMA => 7
  | .DOLLAR => 8
  | .HASH => 9
  | .AT => 10
  | .PERIOD => 11
  | .ASSIGN => 12
  | .PLUS => 13
  | .MINUS => 14
  | .STAR => 15
  | .DIV => 16
  | .MOD => 17
  | .TILDE => 18
  | .PIPE2 => 19
  | .LT2 => 20
  | .GT2 => 21
  | .AMP => 22
  | .PIPE => 23
  | .EQ => 24
  | .LT => 25
  | .LT_EQ => 26
  | .GT => 27
  | .GT_EQ => 28
  | .SQL_NOT_EQ1 => 29
  | .SQL_NOT_EQ2 => 30
  | .DATABASE_ => 31
  | .USE_ => 32
  | .AS_ => 33
  | .TABLE_ => 34
  | .ACTION_ => 35
  | .INIT_ => 36
  | .PUBLIC_ => 37
  | .PRIVATE_ => 38
  | .VIEW_ => 39
  | .OWNER_ => 40
  | .INT_ => 41
  | .TEXT_ => 42
  | .BLOB_ => 43
  | .MIN_ => 44
  | .MAX_ => 45
  | .MIN_LEN_ => 46
  | .MAX_LEN_ => 47
  | .NOT_NULL_ => 48
  | .PRIMARY_ => 49
  | .DEFAULT_ => 50
  | .UNIQUE_ => 51
  | .INDEX_ => 52
  | .FOREIGN_KEY_ => 53
  | .FOREIGN_KEY_ABBR_ => 54
  | .REFERENCES_ => 55
  | .REFERENCES_ABBR_ => 56
  | .ACTION_ON_UPDATE_ => 57
  | .ACTION_ON_DELETE_ => 58
  | .ACTION_DO_ => 59
  | .ACTION_DO_NO_ACTION_ => 60
  | .ACTION_DO_CASCADE_ => 61
  | .ACTION_DO_SET_NULL_ => 62
  | .ACTION_DO_SET_DEFAULT_ => 63
  | .ACTION_DO_RESTRICT_ => 64
  | .SELECT_ => 65
  | .INSERT_ => 66
  | .UPDATE_ => 67
  | .DELETE_ => 68
  | .WITH_ => 69
  | .NOT_ => 70
  | .AND_ => 71
  | .OR_ => 72
  | .IDENTIFIER => 73
  | .INDEX_NAME => 74
  | .PARAM_OR_VAR => 75
  | .BLOCK_VAR_OR_ANNOTATION => 76
  | .UNSIGNED_NUMBER_LITERAL => 77
  | .STRING_LITERAL => 78
  | .SQL_KEYWORDS => 79
  | .SQL_STMT => 80
  | .WS => 81
  | .TERMINATOR => 82
  | .BLOCK_COMMENT => 83
  | .LINE_COMMENT => 84

/-- All token types in the order of their numbers. -/
def TT.all : List TT :=
  [.EOF,
    .COL, .SCOL, .L_PAREN, .L_BRACE, .R_PAREN, .R_BRACE, .COMMA, .DOLLAR, .HASH, .AT, .PERIOD,
    .ASSIGN, .PLUS, .MINUS, .STAR, .DIV, .MOD, .TILDE, .PIPE2, .LT2, .GT2, .AMP, .PIPE, .EQ,
    .LT, .LT_EQ, .GT, .GT_EQ, .SQL_NOT_EQ1, .SQL_NOT_EQ2, .DATABASE_, .USE_, .AS_, .TABLE_,
    .ACTION_, .INIT_, .PUBLIC_, .PRIVATE_, .VIEW_, .OWNER_, .INT_, .TEXT_, .BLOB_, .MIN_, .MAX_,
    .MIN_LEN_, .MAX_LEN_, .NOT_NULL_, .PRIMARY_, .DEFAULT_, .UNIQUE_, .INDEX_, .FOREIGN_KEY_,
    .FOREIGN_KEY_ABBR_, .REFERENCES_, .REFERENCES_ABBR_, .ACTION_ON_UPDATE_, .ACTION_ON_DELETE_,
    .ACTION_DO_, .ACTION_DO_NO_ACTION_, .ACTION_DO_CASCADE_, .ACTION_DO_SET_NULL_,
    .ACTION_DO_SET_DEFAULT_, .ACTION_DO_RESTRICT_, .SELECT_, .INSERT_, .UPDATE_, .DELETE_,
    .WITH_, .NOT_, .AND_, .OR_, .IDENTIFIER, .INDEX_NAME, .PARAM_OR_VAR,
    .BLOCK_VAR_OR_ANNOTATION, .UNSIGNED_NUMBER_LITERAL, .STRING_LITERAL, .SQL_KEYWORDS,
    .SQL_STMT, .WS, .TERMINATOR, .BLOCK_COMMENT, .LINE_COMMENT]

/-- A token: its type and its text (`Token.GetText`).  Positions (line, column)
only occur in error messages and are not modelled. -/
structure Tok where
  ty : TT
  text : Str
  deriving DecidableEq, Repr, Inhabited

/-- The end-of-file token appended by the token stream
(`antlr.CommonTokenStream`, kfparser/parser.go:30); ANTLR gives it the text
`<EOF>`. -/
def Tok.eof : Tok := ⟨.EOF, "<EOF>".toList⟩

end Verif
